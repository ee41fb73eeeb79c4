/- Property C292 of meshtal_analysis.py: the lookup of mid points keeps the order of the places and stays close to them. -/
import Verif.Props.MeshtalAnalysis
import Mathlib.Tactic.Linarith

namespace Props
open Py Meshtal
variable {K : Type} [Field K] [LinearOrder K] [IsStrictOrderedRing K] [FloorRing K]

private theorem nearest_mem {v r : K} {mids : List K} (h : findNearestMid v mids = .ok r) : r ∈ mids ∧ ∀ x ∈ mids, |r - v| ≤ |x - v| := by
  have hne : mids ≠ [] := by rintro rfl; cases h
  obtain ⟨i, r', h', hn⟩ := (C53_nearest v mids).1 hne
  rw [h, Except.ok.injEq] at h'
  subst h'
  exact ⟨List.mem_of_getElem? hn.1, hn.2.1⟩

omit [FloorRing K] in
private theorem nearer_right {v a b : K} (hab : a < b) (h : |b - v| ≤ |a - v|) : a + b ≤ 2 * v := by
  by_contra hc
  rw [not_le] at hc
  rcases le_total v a with h1 | h1
  · rw [abs_of_nonneg (by linarith), abs_of_nonneg (by linarith)] at h; linarith
  · rw [abs_of_nonneg (by linarith), abs_of_nonpos (by linarith)] at h; linarith

omit [FloorRing K] in
private theorem nearer_left {v a b : K} (hab : a < b) (h : |a - v| ≤ |b - v|) : 2 * v ≤ a + b := by
  by_contra hc
  rw [not_le] at hc
  rcases le_total v b with h1 | h1
  · rw [abs_of_nonpos (by linarith), abs_of_nonneg (by linarith)] at h; linarith
  · rw [abs_of_nonpos (by linarith), abs_of_nonpos (by linarith)] at h; linarith

/-- C292: of two places the one further along is never given an earlier mid point, whatever the order of the list. -/
theorem C292_order {v v' r r' : K} {mids : List K} (hv : v ≤ v') (h : findNearestMid v mids = .ok r) (h' : findNearestMid v' mids = .ok r') :
    r ≤ r' := by
  by_contra hc
  rw [not_le] at hc
  obtain ⟨m, n⟩ := nearest_mem h
  obtain ⟨m', n'⟩ := nearest_mem h'
  have a := nearer_right hc (n r' m')
  have b := nearer_left hc (n' r m)
  have : v = v' := by linarith
  subst this
  rw [h, Except.ok.injEq] at h'
  rw [h'] at hc
  exact lt_irrefl _ hc

/-- C292: a place between two neighbouring mid points is given one of the two. -/
theorem C292_neighbours {v c1 c2 : K} {mids : List K} (hs : mids.Pairwise (· < ·)) {i : Nat} (h1 : mids[i]? = some c1) (h2 : mids[i + 1]? = some c2)
    (hv1 : c1 ≤ v) (hv2 : v ≤ c2) : findNearestMid v mids = .ok c1 ∨ findNearestMid v mids = .ok c2 := by
  have m1 := List.mem_of_getElem? h1
  have m2 := List.mem_of_getElem? h2
  obtain ⟨k, r, h, hn⟩ := (C53_nearest v mids).1 (List.ne_nil_of_mem m1)
  have l := C292_order hv1 ((C53_nearest c1 mids).2.2 m1) h
  have u := C292_order hv2 h ((C53_nearest c2 mids).2.2 m2)
  obtain ⟨hi, e1⟩ := List.getElem?_eq_some_iff.1 h1
  obtain ⟨hi2, e2⟩ := List.getElem?_eq_some_iff.1 h2
  obtain ⟨hk, e3⟩ := List.getElem?_eq_some_iff.1 hn.1
  rw [List.pairwise_iff_getElem] at hs
  rw [h, Except.ok.injEq, Except.ok.injEq]
  rcases lt_trichotomy k i with g | g | g
  · have := hs k i hk hi g
    rw [e1, e3] at this
    exact absurd l (not_le.2 this)
  · subst g
    left; rw [← e1, ← e3]
  · rcases Nat.lt_or_ge (i + 1) k with g' | g'
    · have := hs (i + 1) k hi2 hk g'
      rw [e2, e3] at this
      exact absurd u (not_le.2 this)
    · have : k = i + 1 := by omega
      subst this
      right; rw [← e2, ← e3]

/-- C292: the mid point given to a place inside the mesh is no further from it than half the width of its voxel (and the rounding of the mid
    points to five decimals). -/
theorem C292_near (flt : Str → Option K) (bounds : List (Bnd K)) (b mids : List K) (h : Denotes flt bounds b)
    (hm : calcMidPoints flt bounds = .ok mids) {i : Nat} {lo hi v : K} (h1 : b[i]? = some lo) (h2 : b[i + 1]? = some hi) (hv1 : lo ≤ v) (hv2 : v ≤ hi) :
    ∃ r, findNearestMid v mids = .ok r ∧ |r - v| ≤ (hi - lo) / 2 + 1 / 200000 := by
  obtain ⟨mids', e, _, hc⟩ := C51_mids flt bounds b h
  rw [hm, Except.ok.injEq] at e
  subst e
  obtain ⟨c, hcm, hcd, _⟩ := hc i lo hi h1 h2
  have m := List.mem_of_getElem? hcm
  obtain ⟨k, r, hr, hn⟩ := (C53_nearest v mids).1 (List.ne_nil_of_mem m)
  refine ⟨r, hr, le_trans (hn.2.1 c m) ?_⟩
  rw [abs_le] at hcd ⊢
  constructor <;> linarith [hcd.1, hcd.2]

example : findNearestMid (2 : ℚ) [5, 1 / 2] = .ok (1 / 2) ∧ findNearestMid (3 : ℚ) [5, 1 / 2] = .ok 5 := by constructor <;> decide +kernel
example : findNearestMid (2 : ℚ) [1, 3, 5] = .ok 1 ∨ findNearestMid (2 : ℚ) [1, 3, 5] = .ok 3 :=
  C292_neighbours (i := 0) (by decide) rfl rfl (by norm_num) (by norm_num)
example : ∃ r, findNearestMid (9 : ℚ) [5, 21 / 2] = .ok r ∧ |r - 9| ≤ (10 - 0) / 2 + 1 / 200000 :=
  C292_near (fun _ => none) [.num 0, .num 10, .num 11] [0, 10, 11] [5, 21 / 2] (by simp [Denotes]) (by decide +kernel) (i := 0) rfl rfl (by norm_num) (by norm_num)

end Props
