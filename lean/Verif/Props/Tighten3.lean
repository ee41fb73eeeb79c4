/-
Further theorems for plots and texts whose first theorems left some wrong programs unnoticed (see seeded/LOG.jsonl), and violations stated
for all inputs of their kind.
-/
import Verif.Props.McnpPlots2
import Verif.Props.McnpPlots3
import Verif.Props.McnpInput4
import Verif.Props.MeshPlots

set_option linter.unusedSectionVars false
set_option linter.unusedSimpArgs false

namespace Props
open Py NeutUtilities

/-! ### C146: the failures of `time_slice` -/

section slices
open McnpAnalysis McnpPlots
variable {K : Type} [Field K] [LinearOrder K] [IsStrictOrderedRing K]

/-- No times: ValueError. A row without the nearest time bin: IndexError. Otherwise a number of energies different from the number of
    rows: ValueError. -/
theorem C146_errors (target : K) (energies times : List K) (results : List (List K)) (f : K) :
    (times = [] → timeSlice target energies times results f = .error .ValueError) ∧
    ∀ ti, Nearest times target ti →
      ((∃ row ∈ results, row.length ≤ ti) → timeSlice target energies times results f = .error .IndexError) ∧
      ((∀ row ∈ results, ti < row.length) → results.length ≠ energies.length → timeSlice target energies times results f = .error .ValueError) := by
  constructor
  · rintro rfl; rfl
  · intro ti hn
    have ha := (mp_argmin_nearest times target ti).2 hn
    constructor
    · rintro ⟨row, hr, hl⟩
      unfold timeSlice
      rw [ha, ex_ok_bind]
      have : results.mapM (fun row => orErr .IndexError row[ti]?) = .error .IndexError := by
        refine mapM_except_err_of ?_ ⟨row, hr, .IndexError, ?_⟩
        · intro a _ e he
          cases h : a[ti]? with
          | none => rw [h] at he; cases he; rfl
          | some v => rw [h] at he; cases he
        · rw [List.getElem?_eq_none hl]; rfl
      rw [this]; rfl
    · intro hr hl
      unfold timeSlice
      rw [ha, ex_ok_bind]
      have : results.mapM (fun row => orErr .IndexError row[ti]?) = .ok (results.map (fun row : List K => row.getD ti 0)) := by
        refine mapM_except_ok_of (g := fun row : List K => row.getD ti 0) (fun a h => ?_)
        rw [List.getElem?_eq_getElem (hr a h)]
        simp [orErr, List.getD, hr a h]
      rw [this, ex_ok_bind]
      unfold curve
      rw [if_neg (by simp [normalise]; omega)]

example : timeSlice (2 : ℚ) [10, 20] [1, 3, 5] [[1, 2, 3], []] 2 = .error .IndexError ∧
    timeSlice (2 : ℚ) [10] [1, 3, 5] [[1, 2, 3], [4, 5, 6]] 2 = .error .ValueError := by decide +kernel

/-! ### C148 and C149: the limits for several targets -/

/-- `m` is the median of a list of whole numbers, rounded down. -/
def MedianOf (l : List Nat) (m : Nat) : Prop := ∃ s : List Nat, s.Perm l ∧ s.Pairwise (· ≤ ·) ∧
  ((∃ k, s.length = 2 * k + 1 ∧ s[k]? = some m) ∨ ∃ k a b, s.length = 2 * k + 2 ∧ s[k]? = some a ∧ s[k + 1]? = some b ∧ m = (a + b) / 2)

theorem mp_median {l : List Nat} {m : Nat} : medianIndex l = .ok m ↔ MedianOf l m := by
  have key : ∀ s : List Nat, (if s.length = 0 then Except.error Err.ValueError
      else if s.length % 2 = 1 then orErr .ValueError s[s.length / 2]?
      else do
        let a ← orErr .ValueError s[s.length / 2 - 1]?
        let b ← orErr .ValueError s[s.length / 2]?
        pure ((a + b) / 2)) = .ok m ↔
      ((∃ k, s.length = 2 * k + 1 ∧ s[k]? = some m) ∨ ∃ k a b, s.length = 2 * k + 2 ∧ s[k]? = some a ∧ s[k + 1]? = some b ∧ m = (a + b) / 2) := by
    intro s
    split
    · constructor
      · intro h; cases h
      · rintro (⟨k, h, _⟩ | ⟨k, _, _, h, _⟩) <;> omega
    · split
      · rw [orErr_ok_iff]
        constructor
        · intro h; exact .inl ⟨s.length / 2, by omega, h⟩
        · rintro (⟨k, h, h'⟩ | ⟨k, _, _, h, _⟩)
          · rw [show s.length / 2 = k by omega]; exact h'
          · omega
      · simp only [ex_bind_ok, orErr_ok_iff, ex_pure, Except.ok.injEq]
        constructor
        · rintro ⟨a, ha, b, hb, h⟩
          exact .inr ⟨s.length / 2 - 1, a, b, by omega, ha, by rw [show s.length / 2 - 1 + 1 = s.length / 2 by omega]; exact hb, h.symm⟩
        · rintro (⟨k, h, h'⟩ | ⟨k, a, b, h, ha, hb, hm⟩)
          · omega
          · exact ⟨a, by rw [show s.length / 2 - 1 = k by omega]; exact ha, b, by rw [show s.length / 2 = k + 1 by omega]; exact hb, hm.symm⟩
  have hk := key (l.insertionSort (· ≤ ·))
  constructor
  · intro h
    exact ⟨_, List.perm_insertionSort _ l, List.pairwise_insertionSort _ l, hk.1 h⟩
  · rintro ⟨s, hp, hs, h⟩
    have : s = l.insertionSort (· ≤ ·) :=
      (hp.trans (List.perm_insertionSort (· ≤ ·) l).symm).eq_of_pairwise (fun a b _ _ h1 h2 => Nat.le_antisymm h1 h2) hs
        (List.pairwise_insertionSort _ l)
    subst this
    exact hk.2 h

/-- Nothing has no median. -/
theorem mp_median_nil : medianIndex [] = .error .ValueError := rfl

theorem mp_median_lt {l : List Nat} {m n : Nat} (h : MedianOf l m) (hl : ∀ x ∈ l, x < n) : m < n := by
  obtain ⟨s, hp, _, ⟨k, _, h⟩ | ⟨k, a, b, _, ha, hb, rfl⟩⟩ := h
  · exact hl m (hp.mem_iff.1 (List.mem_of_getElem? h))
  · have h1 := hl a (hp.mem_iff.1 (List.mem_of_getElem? ha))
    have h2 := hl b (hp.mem_iff.1 (List.mem_of_getElem? hb))
    omega

private theorem slice_peaks {targets energies times : List K} {results : List (List K)} {f : K} {rs : List (Curve K × Nat × K)}
    (h : List.Forall₂ (fun te r => ∃ ei, Nearest energies te ei ∧ energyCurve (times.map Constants.shakeToMs) results f ei = .ok r) targets rs) :
    List.Forall₂ (fun (c : Curve K) p => Peak c.y p ∧ c.x = times.map Constants.shakeToMs ∧ p < times.length) (rs.map (·.1)) (rs.map (fun r => r.2.1)) := by
  induction h with
  | nil => exact .nil
  | @cons te r tes rs h _ ih =>
    obtain ⟨ei, _, hr⟩ := h
    obtain ⟨row, _, hc, hlen, hp, hv⟩ := mp_energyCurve_ok hr
    have hl := (List.getElem?_eq_some_iff.1 hv).1
    simp only [List.length_map, List.length_dropLast] at hl hlen
    have hx : Peak r.1.y r.2.1 ∧ r.1.x = times.map Constants.shakeToMs ∧ r.2.1 < times.length :=
      ⟨by rw [hc]; exact hp, by rw [hc], by omega⟩
    exact .cons hx ih

/-- The automatic limits for any targets: the times of the bins `window` before and `window` behind the median of the peaks (as far as
    there are bins). -/
theorem C148_window {targets energies times : List K} {results : List (List K)} {window : Nat} {f : K} {pt : Bool} {fig : SliceFig K}
    (h : energySlice targets energies times results none none window f pt = .ok fig) :
    ∃ peaks m, List.Forall₂ (fun (c : Curve K) p => Peak c.y p ∧ p < times.length) fig.curves peaks ∧ MedianOf peaks m ∧ m < times.length ∧
      (∃ t, times[m - window]? = some t ∧ Microseconds t fig.xlim.1) ∧
      ∃ t, times[min (times.length - 1) (m + window)]? = some t ∧ Microseconds t fig.xlim.2 := by
  obtain ⟨rs, h1, h2, _, _, hx, _⟩ := mp_energySlice_ok h
  have hp := slice_peaks h1
  unfold timeLimits at hx
  simp only [ex_bind_ok, orErr_ok_iff, ex_pure, Except.ok.injEq, Option.getD_none, List.length_map, List.getElem?_map, Option.map_eq_some_iff, mp_median] at hx
  obtain ⟨m, hm, lo, ⟨t, ht, rfl⟩, hi, ⟨t', ht', rfl⟩, hxe⟩ := hx
  have hlt : ∀ x ∈ rs.map (fun r => r.2.1), x < times.length := by
    intro x hx
    obtain ⟨i, hi, rfl⟩ := List.mem_iff_getElem.1 hx
    have hl := hp.length_eq
    exact (List.forall₂_iff_get.1 hp).2 i (by omega) hi |>.2.2
  have hml := mp_median_lt hm hlt
  have hmin : min m (times.length - 1) = m := by omega
  rw [hmin] at ht ht'
  refine ⟨_, m, ?_, hm, hml, ⟨t, ht, ?_⟩, ⟨t', ht', ?_⟩⟩
  · rw [h2]; exact hp.imp (fun _ _ h => ⟨h.1, h.2.2⟩)
  · rw [← hxe]; exact mp_micro t
  · rw [← hxe]; exact mp_micro t'

private theorem micro_lt {s t x y : K} (hs : Microseconds s x) (ht : Microseconds t y) : x < y ↔ s < t := by
  unfold Microseconds at hs ht
  have h1 : x = s * (1 / 100) := by
    have : x = s * (1 / 10 ^ 8) * 10 ^ 6 := by rw [← hs]; field_simp
    rw [this]; ring
  have h2 : y = t * (1 / 100) := by
    have : y = t * (1 / 10 ^ 8) * 10 ^ 6 := by rw [← ht]; field_simp
    rw [this]; ring
  rw [h1, h2]
  exact mul_lt_mul_iff_of_pos_right (by norm_num)

private theorem get_lt {l : List K} (hs : l.Pairwise (· < ·)) {i j : Nat} {a b : K} (hi : l[i]? = some a) (hj : l[j]? = some b) : a < b ↔ i < j := by
  obtain ⟨h1, rfl⟩ := List.getElem?_eq_some_iff.1 hi
  obtain ⟨h2, rfl⟩ := List.getElem?_eq_some_iff.1 hj
  have hlt := List.pairwise_iff_getElem.1 hs
  constructor
  · intro h
    by_contra hn
    rcases Nat.lt_or_eq_of_le (Nat.le_of_not_lt hn) with h' | h'
    · exact absurd (hlt _ _ h2 h1 h') (not_lt.2 h.le)
    · subst h'; exact lt_irrefl _ h
  · intro h; exact hlt _ _ h1 h2 h

/-- For increasing times the peak of a target is outside the plot exactly if it is more than `window` bins away from the median of the
    peaks. -/
theorem C148_far_violated {targets energies times : List K} {results : List (List K)} {window : Nat} {f : K} {pt : Bool} {fig : SliceFig K}
    (hs : times.Pairwise (· < ·)) (h : energySlice targets energies times results none none window f pt = .ok fig) :
    ∃ peaks m, List.Forall₂ (fun (c : Curve K) p => Peak c.y p) fig.curves peaks ∧ MedianOf peaks m ∧
      ∀ p ∈ peaks, ∃ t x, times[p]? = some t ∧ Microseconds t x ∧ ((x < fig.xlim.1 ∨ fig.xlim.2 < x) ↔ (p + window < m ∨ m + window < p)) := by
  obtain ⟨peaks, m, h1, h2, hm, ⟨lo, hlo, hlo'⟩, hi, hhi, hhi'⟩ := C148_window h
  refine ⟨peaks, m, h1.imp (fun _ _ h => h.1), h2, ?_⟩
  intro p hp
  have hlt : p < times.length := by
    obtain ⟨i, hi, rfl⟩ := List.mem_iff_getElem.1 hp
    have hl := h1.length_eq
    exact (List.forall₂_iff_get.1 h1).2 i (by omega) hi |>.2
  have ht := List.getElem?_eq_getElem hlt
  refine ⟨_, _, ht, mp_micro _, ?_⟩
  rw [micro_lt (mp_micro _) hlo', micro_lt hhi' (mp_micro _), get_lt hs ht hlo, get_lt hs hhi ht]
  omega

example : MedianOf [7, 1, 3] 3 ∧ MedianOf [8, 1] 4 :=
  ⟨⟨[1, 3, 7], by decide, by decide, .inl ⟨1, rfl, rfl⟩⟩, ⟨[1, 8], by decide, by decide, .inr ⟨0, 1, 8, rfl, rfl, rfl, rfl⟩⟩⟩

example : energySlice ([1, 2, 3] : List ℚ) [1, 2, 3] [100, 200, 300, 400, 500] [[9, 0, 0, 0, 0, 0], [0, 9, 0, 0, 0, 0], [0, 0, 0, 0, 9, 0]] none none 1 1 false =
    .ok ⟨[⟨[1, 2, 3, 4, 5], [9, 0, 0, 0, 0]⟩, ⟨[1, 2, 3, 4, 5], [0, 9, 0, 0, 0]⟩, ⟨[1, 2, 3, 4, 5], [0, 0, 0, 0, 9]⟩], none, (1, 3), 9.45⟩ := by
  decide +kernel

/-- With the total the upper limit is 1.05 times the total in the bin of the median of the peaks: whatever is larger elsewhere is cut
    off. -/
theorem C149_cut_violated {targets energies times : List K} {results : List (List K)} {minT maxT : Option K} {window : Nat} {f : K}
    {fig : SliceFig K} (h : energySlice targets energies times results minT maxT window f true = .ok fig) :
    ∃ peaks m c y, List.Forall₂ (fun (c : Curve K) p => Peak c.y p) fig.curves peaks ∧ MedianOf peaks m ∧ fig.total = some c ∧
      c.y[m]? = some y ∧ (∀ z, fig.ymax < z ↔ y * (105 / 100) < z) := by
  obtain ⟨rs, h1, h2, h3, _, _, hy⟩ := mp_energySlice_ok h
  have hp := slice_peaks h1
  obtain ⟨c, hc, ht⟩ := h3 rfl
  obtain ⟨hcl, rfl⟩ := mp_curve_ok.1 hc
  unfold yLimit at hy
  simp only [if_true, ex_bind_ok, orErr_ok_iff, ex_pure, Except.ok.injEq, mp_median] at hy
  obtain ⟨m, hm, y, hym, hye⟩ := hy
  have hlt : ∀ x ∈ rs.map (fun r => r.2.1), x < times.length := by
    intro x hx
    obtain ⟨i, hi, rfl⟩ := List.mem_iff_getElem.1 hx
    have hl := hp.length_eq
    exact (List.forall₂_iff_get.1 hp).2 i (by omega) hi |>.2.2
  have hml := mp_median_lt hm hlt
  rw [List.length_map, List.length_dropLast] at hcl
  have hmin : min m ((normalise (columnSums results) f).length - 1) = m := by omega
  rw [hmin] at hym
  refine ⟨_, m, _, y, ?_, hm, ht, ?_, ?_⟩
  · rw [h2]; exact hp.imp (fun _ _ h => h.1)
  · show (normalise (columnSums results) f).dropLast[m]? = some y
    rw [List.getElem?_dropLast, if_pos (by omega)]
    exact hym
  · intro z
    rw [← hye, show (1.05 : K) = 105 / 100 by norm_num]

/-- Whenever the lower limit of `plot_spectra` is set automatically, it is the upper edge of a bin of the last tally that is not zero, so
    that this bin is outside the plot. -/
theorem C153_all_violated {ts : List (McnpOutput.Tally K)} {err : Bool} {fig : SpecFig K} {x : K} (h : plotSpectra ts err none = .ok fig)
    (hx : fig.xmin = some x) : ∃ (c : Curve K) (t : McnpOutput.Tally K) (eng : List K) (i : Nat) (v : K), fig.curves.getLast? = some c ∧
      ts.getLast? = some t ∧ t.eng = some eng ∧ eng[i]? = some x ∧ c.y[i]? = some v ∧ v ≠ 0 := by
  obtain ⟨c, t, eng, h1, h2, h3, ⟨i, x', v, h4, h5, h6, h7, _⟩ | ⟨h4, _⟩⟩ := C153_auto_partial h
  · rw [hx] at h4
    cases h4
    exact ⟨c, t, eng, i + 1, v, h1, h2, h3, h5, h6, h7⟩
  · rw [hx] at h4; cases h4

end slices

/-! ### C170: the text of an input file -/

section text
open McnpInput
variable {F : Type}

/-- The description has three lines: the path, the mode and the type of the calculation. -/
theorem C170_text (repr : Str → Str) (i : Input F) :
    (∀ m, i.mode = some m → inputText repr i = p!"File: " ++ i.filePath ++ p!"\nMode: [" ++ join p!", " (m.map repr) ++ p!"]\n" ++ calcType i) ∧
    (i.mode = none → inputText repr i = p!"File: " ++ i.filePath ++ p!"\nMode: None\n" ++ calcType i) := by
  constructor
  · intro m hm
    simp [inputText, optText, hm, listText, join, List.append_assoc]
  · intro hm
    simp [inputText, optText, hm, listText, join, List.append_assoc]

/-- The type is called unknown exactly if there is neither a kcode nor an sdef card. -/
theorem C170_unknown {flt : Str → Option F} {path : Str} {fs fs' : FS} {i : Input F} (h : readMcnpInput flt path fs = (.ok i, fs')) :
    calcType i = p!"Unknown calculation type" ↔
      ¬ StartsCard i.dataBlock p!"kcode" ∧ ¬ StartsCard i.dataBlock p!"sdef" := by
  obtain ⟨_, _, _, _, _, _, _, _, _, _, _, _, _, _, _, _, _, _, _, _, _, hk, hs, _⟩ := C168_file h
  rw [← hk, ← hs]
  unfold calcType
  cases i.isSdef <;> cases i.isKcode <;> simp

end text

/-! ### C175: `create_plot` for any sizes -/

section pictures
open Meshtal
variable {K : Type} [Field K] [LinearOrder K] [IsStrictOrderedRing K]

/-- `create_plot` itself: as many coordinates as columns and rows draws one cell per value; one more of each takes them as boundaries;
    empty axes raise ValueError; any other number of coordinates raises TypeError. -/
theorem C175_create (si sj : List K) (values : List (List (Option K))) (lmin lmax : K) :
    (sj.length = values.length → (∀ row ∈ values, row.length = si.length) →
      (si = [] ∨ sj = [] → createPlot si sj values lmin lmax = .error .ValueError) ∧
      (si ≠ [] → sj ≠ [] → ∃ p, createPlot si sj values lmin lmax = .ok p ∧ p.cells = values)) ∧
    (values ≠ [] → sj.length = values.length + 1 → (∀ row ∈ values, si.length = row.length + 1) →
      ∃ p, createPlot si sj values lmin lmax = .ok p ∧ p.cells = values ∧ p.xEdges = si ∧ p.yEdges = sj) ∧
    (values ≠ [] → (∃ row ∈ values, ¬ (sj.length = values.length ∧ si.length = row.length) ∧ ¬ (sj.length = values.length + 1 ∧ si.length = row.length + 1)) →
      createPlot si sj values lmin lmax = .error .TypeError) := by
  refine ⟨fun h1 h2 => ⟨?_, ?_⟩, ?_, ?_⟩
  · intro he
    unfold createPlot
    rw [if_pos ⟨h1, h2⟩]
    rcases he with rfl | rfl
    · rfl
    · cases si <;> rfl
  · intro h3 h4
    unfold createPlot
    rw [if_pos ⟨h1, h2⟩]
    cases si with
    | nil => exact absurd rfl h3
    | cons a si =>
      cases sj with
      | nil => exact absurd rfl h4
      | cons b sj => exact ⟨_, rfl, rfl⟩
  · intro h0 h1 h2
    unfold createPlot
    rw [if_neg (fun h => by omega), if_pos ⟨h0, h1, h2⟩]
    cases sj with
    | nil => simp at h1
    | cons b sj =>
      cases si with
      | nil =>
        cases values with
        | nil => exact absurd rfl h0
        | cons r rs => have := h2 r (by simp); simp at this
      | cons a si => exact ⟨_, rfl, rfl, rfl, rfl⟩
  · rintro h0 ⟨row, hr, h1, h2⟩
    unfold createPlot
    rw [if_neg (fun h => h1 ⟨h.1, (h.2 row hr).symm⟩), if_neg (fun h => h2 ⟨h.2.1, h.2.2 row hr⟩)]

example : (createPlot ([0, 1] : List ℚ) [0, 2] [[some 5]] 1 10).toOption.map (fun p => (p.xEdges, p.cells)) = some ([0, 1], [[some 5]]) := by
  decide +kernel

end pictures

end Props
