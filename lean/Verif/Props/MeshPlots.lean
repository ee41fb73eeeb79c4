/- Properties C175-C177: slice pictures, the histogram of the errors and the description of a mesh (meshtal_analysis.py). -/
import Verif.Model.MeshPlots
import Verif.Props.MeshtalAnalysis
import Verif.Proofs.Except
import Mathlib.Algebra.BigOperators.Group.List.Basic
import Mathlib.Data.Rat.Floor
import Mathlib.Tactic.FieldSimp
import Mathlib.Tactic.Linarith
import Mathlib.Tactic.Ring
import Mathlib.Tactic.NormNum

set_option linter.unusedSectionVars false
set_option linter.unusedSimpArgs false

namespace Props
open Py Meshtal
variable {K : Type} [Field K] [LinearOrder K] [IsStrictOrderedRing K]

/-! ### C175 -/

private theorem edges_length (l : List K) (h : 2 ≤ l.length) : (edges l).length = l.length + 1 := by
  match l, h with
  | a :: b :: l, _ => simp [edges]

private theorem edges_first (a b : K) (l : List K) : (edges (a :: b :: l))[0]? = some (a - (b - a) / 2) := rfl

theorem edges_mid (l : List K) (k : Nat) (x y : K) (hx : l[k]? = some x) (hy : l[k + 1]? = some y) :
    (edges l)[k + 1]? = some (x + (y - x) / 2) := by
  match l, hx, hy with
  | [], hx, _ => cases hx
  | [a], _, hy => cases hy
  | a :: b :: l, hx, hy =>
    simp only [edges, List.getElem?_cons_succ]
    have hk : k < l.length + 1 := by
      have := (List.getElem?_eq_some_iff.1 hy).1
      simpa using this
    rw [List.getElem?_append_left (by simpa using hk), List.getElem?_zipWith, hx]
    simp only [List.getElem?_cons_succ] at hy
    rw [hy]

private theorem getLastD_get? (l : List K) (d : K) (k : Nat) (hk : l.length = k + 1) (x : K) (hx : l[k]? = some x) : l.getLastD d = x := by
  rw [List.getLastD_eq_getLast?, List.getLast?_eq_getElem?, hk]
  simp [hx]

private theorem edges_last (l : List K) (k : Nat) (hk : l.length = k + 2) (x y : K) (hx : l[k]? = some x) (hy : l[k + 1]? = some y) :
    (edges l)[k + 2]? = some (y + (y - x) / 2) := by
  match l, hk with
  | a :: b :: l, hk =>
    have hk' : l.length = k := by simpa using hk
    simp only [edges, List.getElem?_cons_succ]
    rw [List.getElem?_append_right (by simp [hk'])]
    have h1 : (b :: l).getLastD b = y := getLastD_get? _ _ k (by simp [hk']) y (by simpa using hy)
    have h2 : (a :: b :: l).dropLast.getLastD a = x := by
      cases k with
      | zero =>
        cases l with
        | nil => simpa using hx
        | cons c l => simp at hk'
      | succ j =>
        refine getLastD_get? _ _ (j + 1) (by simp [hk']) x ?_
        rw [List.getElem?_dropLast, if_pos (by simp [hk'])]
        exact hx
    rw [h1, h2]
    simp [hk']

/-- On an axis with at least two equal voxels the boundaries of the drawn cells are those of the voxels. -/
private theorem edges_equal (b0 h : K) (l : List K) (hm : EqualMids b0 h l) (h2 : 2 ≤ l.length) :
    (edges l).length = l.length + 1 ∧ ∀ k ≤ l.length, (edges l)[k]? = some (b0 + k * h) := by
  refine ⟨edges_length l h2, ?_⟩
  have get : ∀ k < l.length, l[k]? = some (b0 + k * h + h / 2) := by
    intro k hk
    rw [List.getElem?_eq_getElem hk]
    congr 1
    exact hm k _ (List.getElem?_eq_getElem hk)
  intro k hk
  rcases Nat.eq_zero_or_pos k with rfl | hpos
  · match l, h2 with
    | a :: b :: l, _ =>
      rw [edges_first]
      have ha := hm 0 a rfl
      have hb := hm 1 b rfl
      congr 1
      rw [ha, hb]; push_cast; ring
  · obtain ⟨j, rfl⟩ : ∃ j, k = j + 1 := ⟨k - 1, by omega⟩
    by_cases hlast : j + 1 = l.length
    · obtain ⟨i, rfl⟩ : ∃ i, j = i + 1 := ⟨j - 1, by omega⟩
      rw [edges_last l i (by omega) _ _ (get i (by omega)) (get (i + 1) (by omega))]
      congr 1; push_cast; ring
    · rw [edges_mid l j _ _ (get j (by omega)) (get (j + 1) (by omega))]
      congr 1; push_cast; ring

private theorem arrayT_rows {α : Type} {cols rows : List (List α)} (h : arrayT cols = .ok rows) : ∀ r ∈ rows, r.length = cols.length := by
  unfold arrayT at h
  split at h
  · cases h; simp
  · rename_i c cs
    split at h
    · rename_i hall
      cases h
      intro r hr
      simp only [List.mem_map, List.mem_range] at hr
      obtain ⟨k, hk, rfl⟩ := hr
      simp only [List.all_eq_true, decide_eq_true_eq] at hall
      have : ∀ d ∈ c :: cs, k < d.length := by
        intro d hd
        rcases List.mem_cons.1 hd with rfl | hd
        · exact hk
        · rw [hall d hd]; exact hk
      generalize c :: cs = L at this
      clear * - this
      induction L with
      | nil => rfl
      | cons d L ih =>
        have hd := this d (by simp)
        rw [List.filterMap_cons, List.getElem?_eq_getElem hd]
        simp [ih (fun d hd => this d (List.mem_cons_of_mem _ hd))]
    · cases h

theorem slice_sizes {m : Mesh K (Frame K)} {value : K} {plane : Str} {erg time : Option K} {s : Slice K}
    (h : extractSlice m value plane erg time = .ok s) :
    (∀ r ∈ s.values, r.length = s.sliceI.length) ∧ (∀ r ∈ s.errors, r.length = s.sliceI.length) ∧
      ∃ i j v, planeAxes plane = .ok (i, j, v) ∧ s.sliceI = m.mids i ∧ s.sliceJ = m.mids j ∧ findNearestMid value (m.mids v) = .ok s.value := by
  unfold extractSlice at h
  obtain ⟨f, _, h⟩ := ex_bind_ok.1 h
  obtain ⟨⟨i, j, v⟩, hp, h⟩ := ex_bind_ok.1 h
  obtain ⟨a, ha, h⟩ := ex_bind_ok.1 h
  obtain ⟨vs, hvs, h⟩ := ex_bind_ok.1 h
  obtain ⟨es, hes, h⟩ := ex_bind_ok.1 h
  cases h
  refine ⟨fun r hr => ?_, fun r hr => ?_, i, j, v, hp, rfl, rfl, ha⟩
  · simpa using arrayT_rows hvs r hr
  · simpa using arrayT_rows hes r hr

private theorem span_spec {l : List K} {p : K × K} (h : span l = .ok p) : p.1 ∈ l ∧ p.2 ∈ l ∧ ∀ x ∈ l, p.1 ≤ x ∧ x ≤ p.2 := by
  cases l with
  | nil => cases h
  | cons a l =>
    cases h
    have hmin : ∀ (l : List K) (a : K), (l.foldl min a = a ∨ l.foldl min a ∈ l) ∧ l.foldl min a ≤ a ∧ ∀ x ∈ l, l.foldl min a ≤ x := by
      intro l
      induction l with
      | nil => intro a; simp
      | cons b l ih =>
        intro a
        obtain ⟨h1, h2, h3⟩ := ih (min a b)
        refine ⟨?_, le_trans h2 (min_le_left _ _), ?_⟩
        · rw [List.foldl_cons]
          rcases h1 with h1 | h1
          · rw [h1]
            rcases min_choice a b with h | h <;> simp [h]
          · simp [h1]
        · intro x hx
          rcases List.mem_cons.1 hx with rfl | hx
          · exact le_trans h2 (min_le_right _ _)
          · exact h3 x hx
    have hmax : ∀ (l : List K) (a : K), (l.foldl max a = a ∨ l.foldl max a ∈ l) ∧ a ≤ l.foldl max a ∧ ∀ x ∈ l, x ≤ l.foldl max a := by
      intro l
      induction l with
      | nil => intro a; simp
      | cons b l ih =>
        intro a
        obtain ⟨h1, h2, h3⟩ := ih (max a b)
        refine ⟨?_, le_trans (le_max_left _ _) h2, ?_⟩
        · rw [List.foldl_cons]
          rcases h1 with h1 | h1
          · rw [h1]
            rcases max_choice a b with h | h <;> simp [h]
          · simp [h1]
        · intro x hx
          rcases List.mem_cons.1 hx with rfl | hx
          · exact le_trans (le_max_right _ _) h2
          · exact h3 x hx
    obtain ⟨a1, a2, a3⟩ := hmin l a
    obtain ⟨b1, b2, b3⟩ := hmax l a
    refine ⟨?_, ?_, ?_⟩
    · rcases a1 with h | h <;> simp [h]
    · rcases b1 with h | h <;> simp [h]
    · intro x hx
      rcases List.mem_cons.1 hx with rfl | hx
      · exact ⟨a2, b2⟩
      · exact ⟨a3 x hx, b3 x hx⟩

theorem createPlot_ok {si sj : List K} {vs : List (List (Option K))} {lmin lmax : K} {p : Picture K}
    (hr : ∀ r ∈ vs, r.length = si.length) (h : createPlot si sj vs lmin lmax = .ok p) :
    sj.length = vs.length ∧ p.cells = vs ∧ p.xEdges = edges si ∧ p.yEdges = edges sj ∧ span si = .ok p.xlim ∧ span sj = .ok p.ylim ∧
      p.vmin = lmin ∧ p.vmax = lmax := by
  unfold createPlot at h
  split at h
  · rename_i hc
    obtain ⟨x, hx, h⟩ := ex_bind_ok.1 h
    obtain ⟨y, hy, h⟩ := ex_bind_ok.1 h
    cases h
    exact ⟨hc.1, rfl, rfl, rfl, hx, hy, rfl, rfl⟩
  · split at h
    · rename_i hc
      exfalso
      obtain ⟨hne, _, h2⟩ := hc
      cases vs with
      | nil => exact hne rfl
      | cons r rs =>
        have h3 := h2 r (by simp)
        have h4 := hr r (by simp)
        omega
    · cases h

theorem plotSlice_ok {m : Mesh K (Frame K)} {value : K} {plane : Str} {lmin lmax : K} {err : Bool} {erg time : Option K}
    {fig : SliceFig K} (h : plotSlice m value plane lmin lmax err erg time = .ok fig) :
    extractSlice m value plane erg time = .ok fig.slice ∧ fig.titleAt = value ∧
      createPlot fig.slice.sliceI fig.slice.sliceJ fig.slice.values lmin lmax = .ok fig.main ∧
      (fig.errs.isSome = true ↔ err = true) ∧
      ∀ q ∈ fig.errs, createPlot fig.slice.sliceI fig.slice.sliceJ fig.slice.errors lmin lmax = .ok q := by
  unfold plotSlice at h
  obtain ⟨s, hs, h⟩ := ex_bind_ok.1 h
  obtain ⟨p, hp, h⟩ := ex_bind_ok.1 h
  cases err with
  | true =>
    rw [if_pos rfl] at h
    obtain ⟨q, hq, h⟩ := ex_bind_ok.1 h
    cases h
    refine ⟨hs, rfl, hp, by simp, ?_⟩
    rintro q' hq'
    cases hq'
    exact hq
  | false =>
    rw [if_neg (by simp)] at h
    cases h
    exact ⟨hs, rfl, hp, by simp, fun q hq => by cases hq⟩

/-- A call that returns draws the values of the slice, one cell per value, and the errors exactly if wanted. On axes of at least two
    equal voxels the cell in row r and column c covers exactly the voxel: it lies between the boundaries c and c + 1 of the first axis and
    r and r + 1 of the second.
    Missing: other meshes, the part shown, and the title (`C175_limits_violated`, `C175_nonuniform_violated`, `C175_single_violated`,
    `C175_title_violated`). -/
theorem C175_cells_partial {m : Mesh K (Frame K)} {value : K} {plane : Str} {lmin lmax : K} {err : Bool} {erg time : Option K}
    {fig : SliceFig K} (h : plotSlice m value plane lmin lmax err erg time = .ok fig) :
    extractSlice m value plane erg time = .ok fig.slice ∧ fig.main.cells = fig.slice.values ∧
    fig.main.cells.length = fig.slice.sliceJ.length ∧ (∀ row ∈ fig.main.cells, row.length = fig.slice.sliceI.length) ∧
    fig.main.vmin = lmin ∧ fig.main.vmax = lmax ∧ (fig.errs.isSome = true ↔ err = true) ∧ (∀ q ∈ fig.errs, q.cells = fig.slice.errors) ∧
    (∀ b0 w, EqualMids b0 w fig.slice.sliceI → 2 ≤ fig.slice.sliceI.length →
      ∀ k ≤ fig.slice.sliceI.length, fig.main.xEdges[k]? = some (b0 + k * w)) ∧
    (∀ b0 w, EqualMids b0 w fig.slice.sliceJ → 2 ≤ fig.slice.sliceJ.length →
      ∀ k ≤ fig.slice.sliceJ.length, fig.main.yEdges[k]? = some (b0 + k * w)) := by
  obtain ⟨h1, _, h3, h4, h5⟩ := plotSlice_ok h
  obtain ⟨s1, s2, _⟩ := slice_sizes h1
  obtain ⟨c1, c2, c3, c4, _, _, c7, c8⟩ := createPlot_ok s1 h3
  refine ⟨h1, c2, by rw [c2, c1], by rw [c2]; exact s1, c7, c8, h4, fun q hq => (createPlot_ok s2 (h5 q hq)).2.1, ?_, ?_⟩
  · intro b0 w he h2
    rw [c3]; exact (edges_equal b0 w _ he h2).2
  · intro b0 w he h2
    rw [c4]; exact (edges_equal b0 w _ he h2).2

/-- When the number of values per column is not the number of mid points of the second axis (several energies selected, say) the call
    raises TypeError. -/
theorem C175_mismatch {m : Mesh K (Frame K)} {value : K} {plane : Str} {lmin lmax : K} {err : Bool} {erg time : Option K} {s : Slice K}
    (hs : extractSlice m value plane erg time = .ok s) (hne : s.values.length ≠ s.sliceJ.length) :
    plotSlice m value plane lmin lmax err erg time = .error .TypeError := by
  unfold plotSlice
  rw [hs]
  simp only [ex_ok_bind]
  have : createPlot s.sliceI s.sliceJ s.values lmin lmax = .error .TypeError := by
    unfold createPlot
    rw [if_neg (fun h => hne h.1.symm), if_neg]
    rintro ⟨h1, _, h2⟩
    obtain ⟨s1, _⟩ := slice_sizes hs
    cases hv : s.values with
    | nil => exact h1 hv
    | cons r rs =>
      have h3 := h2 r (by rw [hv]; simp)
      have h4 := s1 r (by rw [hv]; simp)
      omega
  rw [this]
  rfl

/-- An unknown plane raises ValueError. -/
theorem C175_plane [FloorRing K] {m : Mesh K (Frame K)} {value : K} {plane : Str} {lmin lmax : K} {err : Bool}
    (h : plane ∉ [p!"XZ", p!"XY", p!"YZ"]) : plotSlice m value plane lmin lmax err none none = .error .ValueError := by
  unfold plotSlice
  rw [C56_plane_partial m value plane none none m.data rfl h]
  rfl

/-- The part shown reaches only from the centre of the first voxel to that of the last: half of the outer voxels is cut off. -/
theorem C175_limits_violated {m : Mesh K (Frame K)} {value : K} {plane : Str} {lmin lmax : K} {err : Bool} {erg time : Option K}
    {fig : SliceFig K} (h : plotSlice m value plane lmin lmax err erg time = .ok fig) (b0 w : K) (hw : 0 < w)
    (he : EqualMids b0 w fig.slice.sliceI) :
    fig.main.xlim = (b0 + w / 2, b0 + (fig.slice.sliceI.length : K) * w - w / 2) := by
  obtain ⟨h1, _, h3, _⟩ := plotSlice_ok h
  obtain ⟨s1, _⟩ := slice_sizes h1
  obtain ⟨_, _, _, _, hsp, _⟩ := createPlot_ok s1 h3
  obtain ⟨m1, m2, m3⟩ := span_spec hsp
  obtain ⟨i, hi, hi'⟩ := List.mem_iff_getElem.1 m1
  obtain ⟨j, hj, hj'⟩ := List.mem_iff_getElem.1 m2
  have get : ∀ k (hk : k < fig.slice.sliceI.length), fig.slice.sliceI[k] = b0 + k * w + w / 2 :=
    fun k hk => he k _ (List.getElem?_eq_getElem hk)
  have hpos : 0 < fig.slice.sliceI.length := by omega
  have a1 := (m3 _ (List.getElem_mem hpos)).1
  have a2 := (m3 _ (List.getElem_mem (show fig.slice.sliceI.length - 1 < fig.slice.sliceI.length by omega))).2
  rw [get] at a1 a2
  have hi0 : fig.main.xlim.1 = b0 + w / 2 := by
    rw [get] at hi'
    rw [← hi'] at a1 ⊢
    have : (0 : K) ≤ (i : K) := Nat.cast_nonneg i
    have h2 : (i : K) * w ≤ 0 := by push_cast at a1; linarith
    have h3 : 0 ≤ (i : K) * w := mul_nonneg this hw.le
    linarith
  have hj0 : fig.main.xlim.2 = b0 + (fig.slice.sliceI.length : K) * w - w / 2 := by
    rw [get] at hj'
    rw [← hj'] at a2 ⊢
    have hcast : ((fig.slice.sliceI.length - 1 : ℕ) : K) = (fig.slice.sliceI.length : K) - 1 := by
      rw [Nat.cast_sub (by omega)]; simp
    rw [hcast] at a2
    have h1 : (j : K) + 1 ≤ (fig.slice.sliceI.length : K) := by exact_mod_cast hj
    have h2 : ((j : K) + 1) * w ≤ (fig.slice.sliceI.length : K) * w := mul_le_mul_of_nonneg_right h1 hw.le
    linarith
  exact Prod.ext hi0 hj0

/-- Voxels of different widths are not drawn in their place: voxels from 0 to 2 and from 2 to 6. -/
theorem C175_nonuniform_violated : ∃ mids : List ℚ, calcMidPoints (fun _ => none) [.num 0, .num 2, .num 6] = .ok mids ∧
    edges mids = [-1 / 2, 5 / 2, 11 / 2] := ⟨[1, 4], by decide +kernel, by decide +kernel⟩

/-- On an axis with a single voxel the cells have no width. -/
theorem C175_single_violated (a : K) : edges [a] = [a, a] := rfl

/-- The title names the requested position, not that of the plane drawn. -/
theorem C175_title_violated : ∃ fig, plotSlice exGrid 100 p!"XZ" 1 2 false none none = .ok fig ∧ fig.titleAt = 100 ∧ fig.slice.value = 5 :=
  ⟨⟨100, ⟨[-1 / 2, 1 / 2, 3 / 2], [-1 / 2, 1 / 2, 3 / 2], [[some 0, some 10], [some 1, some 11]], (0, 1), (0, 1), 1, 2⟩, none,
    ⟨[0, 1], [0, 1], 5, [[some 0, some 10], [some 1, some 11]], [[some 0, some 2], [some 1, some 3]]⟩⟩, by
      have h : extractSlice exGrid 100 p!"XZ" none none =
        .ok ⟨[0, 1], [0, 1], 5, [[some 0, some 10], [some 1, some 11]], [[some 0, some 2], [some 1, some 3]]⟩ := by decide +kernel
      unfold plotSlice
      rw [h]
      have h2 : createPlot ([0, 1] : List ℚ) [0, 1] [[some 0, some 10], [some 1, some 11]] 1 2 =
        .ok ⟨[-1 / 2, 1 / 2, 3 / 2], [-1 / 2, 1 / 2, 3 / 2], [[some 0, some 10], [some 1, some 11]], (0, 1), (0, 1), 1, 2⟩ := by decide +kernel
      simp only [ex_ok_bind]
      rw [h2]
      rfl, rfl, rfl⟩

/-! ### C176 -/

variable [FloorRing K]

private theorem outer_lt (data : List K) : (outerEdges data).1 < (outerEdges data).2 ∧
    ∀ x ∈ data, (outerEdges data).1 ≤ x ∧ x ≤ (outerEdges data).2 := by
  cases data with
  | nil => simp [outerEdges]
  | cons a l =>
    obtain ⟨h1, h2, h3⟩ := span_spec (l := a :: l) (p := (l.foldl min a, l.foldl max a)) rfl
    simp only at h1 h2 h3
    simp only [outerEdges]
    split
    · rename_i heq
      refine ⟨by simp only; rw [heq]; linarith, fun x hx => ?_⟩
      have := h3 x hx
      constructor <;> simp only <;> linarith
    · rename_i hne
      exact ⟨lt_of_le_of_ne (h3 _ h2).1 hne, h3⟩

/-- Membership of a value in bin `k` of `n` equal bins from `lo` to `hi`; the last bin contains its upper boundary. -/
def InBin (n : Nat) (lo hi : K) (k : Nat) (x : K) : Prop :=
  lo + (k : K) * ((hi - lo) / n) ≤ x ∧ (x < lo + ((k : K) + 1) * ((hi - lo) / n) ∨ (k + 1 = n ∧ x ≤ hi))

private theorem binOf_iff {n : Nat} (hn : 0 < n) {lo hi x : K} (hl : lo < hi) (h1 : lo ≤ x) (h2 : x ≤ hi) {k : Nat} (hk : k < n) :
    binOf n lo hi x = k ↔ InBin n lo hi k x := by
  have hd : 0 < hi - lo := sub_pos.2 hl
  have hn' : (0 : K) < n := by exact_mod_cast hn
  have hw : 0 < (hi - lo) / n := div_pos hd hn'
  set t := (x - lo) / (hi - lo) * n with ht
  have ht0 : 0 ≤ t := mul_nonneg (div_nonneg (sub_nonneg.2 h1) hd.le) hn'.le
  have htx : x = lo + t * ((hi - lo) / n) := by
    rw [ht]; field_simp; ring
  have le_iff : ∀ c : K, lo + c * ((hi - lo) / n) ≤ x ↔ c ≤ t := by
    intro c
    conv_lhs => rw [htx]
    rw [add_le_add_iff_left]
    exact mul_le_mul_iff_left₀ hw
  have lt_iff : ∀ c : K, x < lo + c * ((hi - lo) / n) ↔ t < c := by
    intro c
    rw [← not_le, le_iff, not_le]
  have htn : t ≤ n := by
    rw [ht]
    have : (x - lo) / (hi - lo) ≤ 1 := (div_le_one hd).2 (by linarith)
    calc (x - lo) / (hi - lo) * n ≤ 1 * n := mul_le_mul_of_nonneg_right this hn'.le
      _ = n := one_mul _
  have hfl : 0 ≤ ⌊t⌋ := Int.floor_nonneg.2 ht0
  obtain ⟨f, hf⟩ : ∃ f : ℕ, ⌊t⌋ = f := ⟨⌊t⌋.toNat, (Int.toNat_of_nonneg hfl).symm⟩
  have hf1 : (f : K) ≤ t := by
    have := Int.floor_le t
    rw [hf] at this; exact_mod_cast this
  have hf2 : t < (f : K) + 1 := by
    have := Int.lt_floor_add_one t
    rw [hf] at this; exact_mod_cast this
  have hb : binOf n lo hi x = min f (n - 1) := by
    unfold binOf
    rw [← ht, hf]; rfl
  unfold InBin
  rw [hb, le_iff, lt_iff]
  constructor
  · intro h
    by_cases hfn : f ≤ n - 1
    · rw [min_eq_left hfn] at h
      subst h
      exact ⟨hf1, .inl hf2⟩
    · rw [min_eq_right (by omega)] at h
      refine ⟨?_, .inr ⟨by omega, h2⟩⟩
      have : (k : K) ≤ f := by exact_mod_cast (by omega : k ≤ f)
      linarith
  · rintro ⟨a, b | ⟨b, _⟩⟩
    · have : f = k := by
        have x1 : (k : K) < (f : K) + 1 := by linarith
        have x2 : (f : K) < (k : K) + 1 := by linarith
        have y1 : k < f + 1 := by exact_mod_cast x1
        have y2 : f < k + 1 := by exact_mod_cast x2
        omega
      omega
    · have x1 : (k : K) < (f : K) + 1 := by linarith
      have y1 : k < f + 1 := by exact_mod_cast x1
      omega

private theorem sum_countP {α : Type} (f : α → Nat) (n : Nat) (l : List α) (h : ∀ x ∈ l, f x < n) :
    ((List.range n).map (fun k => l.countP (fun x => f x == k))).sum = l.length := by
  induction l with
  | nil => simp
  | cons a l ih =>
    have h1 : ((List.range n).map (fun k => (a :: l).countP (fun x => f x == k))) =
        (List.range n).map (fun k => l.countP (fun x => f x == k) + if k = f a then 1 else 0) := by
      apply List.map_congr_left
      intro k _
      rw [List.countP_cons]
      by_cases hk : k = f a
      · simp [hk]
      · have : (f a == k) = false := by simpa using fun h => hk h.symm
        simp [hk, this]
    rw [h1, List.sum_map_add, ih (fun x hx => h x (List.mem_cons_of_mem _ hx))]
    have h2 : ((List.range n).map (fun k => if k = f a then 1 else 0)).sum = 1 := by
      have : ∀ n, ((List.range n).map (fun k => if k = f a then 1 else 0)).sum = if f a < n then 1 else 0 := by
        intro n
        induction n with
        | zero => simp
        | succ n ih =>
          rw [List.range_succ, List.map_append, List.sum_append, ih]
          simp only [List.map_cons, List.map_nil, List.sum_cons, List.sum_nil]
          split_ifs <;> omega
      rw [this, if_pos (h a (by simp))]
    rw [h2, List.length_cons]

/-- The bars: fifteen equal intervals between the outer boundaries, which enclose every error that is a number; the height of a bar is the
    number of voxels whose error lies in the interval (the last one closed), and each such voxel is counted in exactly one bar. -/
theorem C176_bars (col : List (Option K)) : ∃ H, relErrHist (some col) = .ok H ∧ ∃ lo hi : K, lo < hi ∧
    H.edges.length = 16 ∧ (∀ k : Nat, k ≤ 15 → H.edges[k]? = some (lo + (k : K) * ((hi - lo) / 15))) ∧ H.counts.length = 15 ∧
    (∀ k < 15, ∃ p : K → Bool, (∀ x, some x ∈ col → (p x = true ↔ InBin 15 lo hi k x)) ∧ H.counts[k]? = some ((col.filterMap id).countP p)) ∧
    H.counts.sum = (col.filterMap id).length ∧ (∀ x, some x ∈ col → lo ≤ x ∧ x ≤ hi) := by
  obtain ⟨hlt, hin⟩ := outer_lt (col.filterMap id)
  have mem : ∀ x, some x ∈ col ↔ x ∈ col.filterMap id := by intro x; simp
  refine ⟨histogram 15 (col.filterMap id), rfl, (outerEdges (col.filterMap id)).1, (outerEdges (col.filterMap id)).2, hlt, by simp [histogram], ?_,
    by simp [histogram], ?_, ?_, fun x hx => hin x ((mem x).1 hx)⟩
  · intro k hk
    simp only [histogram]
    rw [List.getElem?_map, List.getElem?_range (by omega)]
    simp only [Option.map_some, Option.some.injEq]
    push_cast
    ring
  · intro k hk
    refine ⟨fun x => binOf 15 (outerEdges (col.filterMap id)).1 (outerEdges (col.filterMap id)).2 x == k, ?_, ?_⟩
    · intro x hx
      obtain ⟨a, b⟩ := hin x ((mem x).1 hx)
      rw [beq_iff_eq]
      exact binOf_iff (by omega) hlt a b hk
    · simp only [histogram]
      rw [List.getElem?_map, List.getElem?_range hk]
      rfl
  · exact sum_countP _ 15 _ (fun x _ => by unfold binOf; omega)

/-- The outer boundaries are the least and the greatest error, if these differ; they are widened by a half if they agree, and are 0 and 1
    without any number. -/
theorem C176_range (col : List (Option K)) (H : Hist K) (h : relErrHist (some col) = .ok H) :
    (∀ a b, some a ∈ col → some b ∈ col → a < b → (∀ x, some x ∈ col → a ≤ x ∧ x ≤ b) → H.edges[0]? = some a ∧ H.edges[15]? = some b) ∧
    (∀ a, some a ∈ col → (∀ x, some x ∈ col → x = a) → H.edges[0]? = some (a - 1 / 2) ∧ H.edges[15]? = some (a + 1 / 2)) ∧
    ((∀ x, some x ∉ col) → H.edges[0]? = some 0 ∧ H.edges[15]? = some 1) := by
  have mem : ∀ x, some x ∈ col ↔ x ∈ col.filterMap id := by intro x; simp
  cases h
  have e0 : (histogram 15 (col.filterMap id)).edges[0]? = some (outerEdges (col.filterMap id)).1 := by
    simp only [histogram]
    rw [List.getElem?_map, List.getElem?_range (by omega)]
    simp
  have e15 : (histogram 15 (col.filterMap id)).edges[15]? = some (outerEdges (col.filterMap id)).2 := by
    simp only [histogram]
    rw [List.getElem?_map, List.getElem?_range (by omega)]
    simp only [Option.map_some, Option.some.injEq]
    push_cast
    ring
  rw [e0, e15]
  generalize hd : col.filterMap id = data at *
  simp only [mem]
  cases data with
  | nil => simp [outerEdges]
  | cons a0 l =>
    obtain ⟨h1, h2, h3⟩ := span_spec (l := a0 :: l) (p := (l.foldl min a0, l.foldl max a0)) rfl
    simp only at h1 h2 h3
    refine ⟨?_, ?_, fun h => absurd (List.mem_cons_self) (h a0)⟩
    · intro a b ha hb hab hall
      have m1 : l.foldl min a0 = a := le_antisymm (h3 a ha).1 (hall _ h1).1
      have m2 : l.foldl max a0 = b := le_antisymm (hall _ h2).2 (h3 b hb).2
      simp only [outerEdges]
      rw [m1, m2, if_neg (ne_of_lt hab)]
      exact ⟨rfl, rfl⟩
    · intro a ha hall
      have m1 : l.foldl min a0 = a := hall _ h1
      have m2 : l.foldl max a0 = a := hall _ h2
      simp only [outerEdges]
      rw [m1, m2, if_pos rfl]
      exact ⟨rfl, rfl⟩

/-- A table without the column raises KeyError. -/
theorem C176_missing : relErrHist (none : Option (List (Option K))) = .error .KeyError := rfl

example : (relErrHist (some [some (0 : ℚ), none, some (1 / 2), some 1, some 1])).map (·.counts) = .ok [1, 0, 0, 0, 0, 0, 0, 1, 0, 0, 0, 0, 0, 0, 2] := by
  decide +kernel

/-! ### C177 -/

/-- The text of a mesh gives the number of voxels, which is the product of the numbers of bins, and the bins of each axis. -/
theorem C177_counts_partial {D : Type} {flt : Str → Option K} {m : Mesh K D} {a b c d : Nat} {v : Option K}
    (h : meshNumbers flt m = .ok (a, b, c, d, v)) : a = b * c * d ∧ b = m.xM.length ∧ c = m.yM.length ∧ d = m.zM.length ∧
      voxelUniformVolume flt m = .ok v := by
  unfold meshNumbers at h
  obtain ⟨v', hv, h⟩ := ex_bind_ok.1 h
  cases h
  exact ⟨rfl, rfl, rfl, rfl, hv⟩

/-- A mesh from a file (bounds are texts) with a non-uniform first axis has no description: TypeError. -/
theorem C177_violated {D : Type} {flt : Str → Option K} {m : Mesh K D} (s : Str) (rest : List (Bnd K)) (hx : m.xB = .str s :: rest)
    (hu : checkUniform flt m.xB = .ok false) : meshNumbers flt m = .error .TypeError := by
  unfold meshNumbers voxelUniformVolume allUniform
  rw [hu]
  simp only [ex_ok_bind]
  have : voxelAverageVolume m = .error .TypeError := by
    unfold voxelAverageVolume axisExtent allNum
    rw [hx]
    rfl
  simp only [Bool.false_eq_true, if_false, ex_pure, ex_ok_bind, this]
  rfl

private def digit (s : Str) : Option ℚ := (pyInt s).map (fun n => (n : ℚ))

example : checkUniform digit [.str p!"0", .str p!"1", .str p!"3"] = .ok false := by decide +kernel
example : meshNumbers digit (⟨none, none, [.str p!"0", .str p!"1"], [.str p!"0", .str p!"2"], [.str p!"0", .str p!"3"], [], [], (), [1/2], [1], [3/2], none⟩ : Mesh ℚ Unit) =
    .ok (1, 1, 1, 1, some 6) := by decide +kernel

end Props
