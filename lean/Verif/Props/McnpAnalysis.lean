/- Properties C39-C42 of mcnp_analysis.py. -/
import Verif.Model.McnpAnalysis
import Verif.Proofs.Numpy
import Mathlib.Algebra.BigOperators.Group.List.Basic
import Mathlib.Algebra.Order.Field.Basic
import Mathlib.Tactic.Ring
import Mathlib.Tactic.Linarith
import Mathlib.Tactic.NormNum

set_option linter.unusedSectionVars false

namespace Props
open Py McnpAnalysis
variable {K : Type} [Field K] [LinearOrder K] [IsStrictOrderedRing K]

/-! ### C39 -/

private theorem width_get (bins : List K) (i : Nat) (w : K) :
    (List.zipWith (fun b a => b - a) bins (0 :: bins))[i]? = some w ↔
      ∃ b a, bins[i]? = some b ∧ (0 :: bins)[i]? = some a ∧ b - a = w := by
  rw [List.getElem?_zipWith_eq_some]

private theorem width_sum (bins : List K) : ∀ (prev : K) (i : Nat) (b : K), bins[i]? = some b →
    ((List.zipWith (fun b a => b - a) bins (prev :: bins)).take (i + 1)).sum = b - prev := by
  induction bins with
  | nil => intro prev i b h; simp at h
  | cons x xs ih =>
    intro prev i b h
    rw [List.zipWith_cons_cons, List.take_succ_cons, List.sum_cons]
    cases i with
    | zero => simp at h; subst h; simp
    | succ i =>
      rw [ih x i b (by simpa using h)]
      ring

/-- C39: as many widths as edges; the partial sums give back the edges; too few edges are refused. -/
theorem C39_widths (bins : List K) :
    (∀ e, calcBinWidth bins = .error e ↔ bins.length < 2 ∧ e = .ValueError) ∧
    ∀ w, calcBinWidth bins = .ok w → w.length = bins.length ∧
      (∀ i b, bins[i]? = some b → (w.take (i + 1)).sum = b) ∧ bins.getLast? = some w.sum := by
  unfold calcBinWidth
  split
  · next h => exact ⟨fun e => by simp [h, eq_comm], fun w hw => by simp at hw⟩
  · next h =>
    refine ⟨fun e => by simp [h], fun w hw => ?_⟩
    simp only [Except.ok.injEq] at hw
    have hlen : w.length = bins.length := by rw [← hw]; simp
    have hs : ∀ i b, bins[i]? = some b → (w.take (i + 1)).sum = b := by
      intro i b hb
      rw [← hw, width_sum bins 0 i b hb, sub_zero]
    refine ⟨hlen, hs, ?_⟩
    have hi : bins.length - 1 < bins.length := by omega
    have := hs (bins.length - 1) bins[bins.length - 1] (List.getElem?_eq_getElem hi)
    rw [show bins.length - 1 + 1 = w.length by omega, List.take_length] at this
    rw [List.getLast?_eq_getElem?, List.getElem?_eq_getElem hi, this]

/-- C39: all widths are positive iff the edges are positive and strictly increasing. -/
theorem C39_positive (bins w : List K) (h : calcBinWidth bins = .ok w) :
    (∀ x ∈ w, 0 < x) ↔ (∀ b ∈ bins, 0 < b) ∧ bins.Pairwise (· < ·) := by
  unfold calcBinWidth at h
  split at h
  · simp at h
  · simp only [Except.ok.injEq] at h
    subst h
    have key : ∀ (l : List K) (prev : K),
        (∀ x ∈ List.zipWith (fun b a => b - a) l (prev :: l), 0 < x) ↔ (prev :: l).Pairwise (· < ·) := by
      intro l
      induction l with
      | nil => intro prev; simp
      | cons x xs ih =>
        intro prev
        rw [List.zipWith_cons_cons, List.forall_mem_cons, ih, ← List.isChain_iff_pairwise, ← List.isChain_iff_pairwise,
          List.isChain_cons_cons, sub_pos]
    rw [key, List.pairwise_cons]

example : calcBinWidth ([1, 3, 4] : List ℚ) = .ok [1, 2, 1] := by decide +kernel

/-! ### C40 -/

private theorem mid_get : ∀ (bounds : List K) (i : Nat) (m : K),
    (calcMidPoints bounds)[i]? = some m ↔ ∃ a b, bounds[i]? = some a ∧ bounds[i + 1]? = some b ∧ m = (a + b) / 2
  | [], i, m => by simp [calcMidPoints]
  | [x], i, m => by simp [calcMidPoints]
  | x :: y :: rest, i, m => by
    rw [calcMidPoints]
    cases i with
    | zero => simp [eq_comm]
    | succ i =>
      rw [List.getElem?_cons_succ, mid_get (y :: rest) i m]
      simp

private theorem mid_length : ∀ (bounds : List K), (calcMidPoints bounds).length = bounds.length - 1
  | [] => rfl
  | [x] => rfl
  | x :: y :: rest => by rw [calcMidPoints, List.length_cons, mid_length (y :: rest)]; simp

/-- C40: one mid point per pair of consecutive bounds, exactly half way. -/
theorem C40_mid_points (bounds : List K) :
    (calcMidPoints bounds).length = bounds.length - 1 ∧
    ∀ i a b, bounds[i]? = some a → bounds[i + 1]? = some b →
      ∃ m, (calcMidPoints bounds)[i]? = some m ∧ m - a = b - m ∧ (a < b → a < m ∧ m < b) := by
  refine ⟨mid_length bounds, ?_⟩
  intro i a b ha hb
  refine ⟨(a + b) / 2, (mid_get bounds i _).2 ⟨a, b, ha, hb, rfl⟩, by ring, ?_⟩
  intro h
  constructor <;> linarith

/-- C40: the mid points of increasing bounds increase. -/
theorem C40_increasing (bounds : List K) (h : bounds.Pairwise (· < ·)) : (calcMidPoints bounds).Pairwise (· < ·) := by
  rw [← List.isChain_iff_pairwise] at h ⊢
  induction bounds with
  | nil => simp [calcMidPoints]
  | cons x xs ih =>
    rcases xs with _ | ⟨y, _ | ⟨z, rest⟩⟩
    · simp [calcMidPoints]
    · simp [calcMidPoints]
    · rw [List.isChain_cons_cons] at h
      have ih := ih h.2
      rw [List.isChain_cons_cons] at h
      rw [calcMidPoints, calcMidPoints, List.isChain_cons_cons]
      rw [calcMidPoints] at ih
      exact ⟨by linarith [h.1, h.2.1], ih⟩

example : ([1, 2, 5] : List ℚ).Pairwise (· < ·) ∧ calcMidPoints ([1, 2, 5] : List ℚ) = [3 / 2, 7 / 2] := by
  decide +kernel

/-! ### C41 -/

/-- C41: the returned time belongs to the first maximum of the row of the first nearest energy. -/
theorem C41_peak (target : K) (energies times : List K) (results : List (List K))
    (he : energies ≠ []) (ht : times ≠ []) (hrows : results.length = energies.length) (hcols : ∀ row ∈ results, row ≠ []) :
    ∃ (ei k : Nat) (e : K) (row : List K) (f t : K), findPeakTime target energies times results = .ok t ∧
      energies[ei]? = some e ∧ (∀ e' ∈ energies, |e - target| ≤ |e' - target|) ∧
      (∀ (j : Nat) (e' : K), j < ei → energies[j]? = some e' → |e - target| < |e' - target|) ∧
      results[ei]? = some row ∧ row[k]? = some f ∧ times[k]? = some t ∧
      (∀ (j : Nat) (f' : K), j < times.length → row[j]? = some f' → f' ≤ f) ∧
      (∀ (j : Nat) (f' : K), j < k → row[j]? = some f' → f' < f) := by
  obtain ⟨ei, hei, a, ha, hmin, hfirst⟩ := argmin_spec (l := energies.map (fun e => |e - target|)) (by simpa using he)
  rw [List.getElem?_map, Option.map_eq_some_iff] at ha
  obtain ⟨e, hee, rfl⟩ := ha
  have hlt : ei < results.length := by
    rw [hrows]; exact (List.getElem?_eq_some_iff.1 hee).1
  have hrow : results[ei]? = some results[ei] := List.getElem?_eq_getElem hlt
  have hne : results[ei].take times.length ≠ [] := by
    rw [ne_eq, List.take_eq_nil_iff]
    rintro (h | h)
    · exact ht (List.length_eq_zero_iff.1 h)
    · exact hcols _ (List.getElem_mem hlt) h
  obtain ⟨k, hk, f, hf, hmax, hfm⟩ := argmax_spec hne
  rw [List.getElem?_take] at hf
  have hkt : k < times.length := by
    by_contra hn
    rw [if_neg hn] at hf
    simp at hf
  rw [if_pos hkt] at hf
  refine ⟨ei, k, e, results[ei], f, times[k], ?_, hee, ?_, ?_, hrow, hf, List.getElem?_eq_getElem hkt, ?_, ?_⟩
  · unfold findPeakTime
    rw [hei]
    simp only [bind, Except.bind, hrow, orErr]
    rw [hk]
    simp only [List.getElem?_eq_getElem hkt]
  · intro e' he'
    exact hmin _ (List.mem_map_of_mem he')
  · intro j e' hj he'
    exact hfirst j _ hj (by rw [List.getElem?_map, he']; rfl)
  · intro j f' hj hf'
    exact hmax f' (List.mem_of_getElem? (i := j) (by rw [List.getElem?_take, if_pos hj]; exact hf'))
  · intro j f' hj hf'
    exact hfm j f' hj (by rw [List.getElem?_take, if_pos (by omega)]; exact hf')

/-- C41: an empty energy list, or no time to choose from, is an error and never a value. -/
theorem C41_empty (target : K) (energies times : List K) (results : List (List K)) :
    (energies = [] → findPeakTime target energies times results = .error .ValueError) ∧
    (times = [] → ∀ t, findPeakTime target energies times results ≠ .ok t) := by
  constructor
  · rintro rfl; rfl
  · rintro rfl t h
    unfold findPeakTime at h
    cases h1 : argmin (energies.map (fun e => |e - target|)) with
    | error e => rw [h1] at h; simp [bind, Except.bind] at h
    | ok ei =>
      rw [h1] at h
      cases h2 : results[ei]? with
      | none => simp [bind, Except.bind, orErr, h2] at h
      | some row => simp [bind, Except.bind, orErr, argmax, h2] at h

example : findPeakTime (2 : ℚ) [1, 3] [10, 20, 30] [[1, 5, 5, 9], [7, 7, 7, 7]] = .ok 20 := by decide +kernel

/-! ### C42 -/

omit [LinearOrder K] [IsStrictOrderedRing K] in
/-- C42: normalisation acts entry by entry and composes by multiplication. -/
theorem C42_normalise (data : List K) (a b : K) :
    (normalise data a).length = data.length ∧
    (∀ (i : Nat) (x : K), data[i]? = some x → (normalise data a)[i]? = some (x * a)) ∧
    normalise (normalise data a) b = normalise data (a * b) ∧ normalise data 1 = data ∧
    (normalise data a).sum = data.sum * a := by
  unfold normalise
  refine ⟨by simp, fun i x h => by simp [h], by simp, by simp, ?_⟩
  induction data with
  | nil => simp
  | cons x xs ih => simp [ih, add_mul]

omit [LinearOrder K] [IsStrictOrderedRing K] in
/-- C42: absolute errors are pairwise products; unequal lengths are refused. -/
theorem C42_abs_errors (results errors : List K) :
    (∀ e, calcErrAbs results errors = .error e ↔ e = .ValueError ∧ results.length ≠ errors.length) ∧
    ∀ out, calcErrAbs results errors = .ok out → out.length = results.length ∧
      ∀ (i : Nat) (r s : K), results[i]? = some r → errors[i]? = some s → out[i]? = some (r * s) := by
  unfold calcErrAbs
  split
  · next h => exact ⟨fun e => by simp [h, eq_comm], fun out ho => by simp at ho⟩
  · next h =>
    rw [not_not] at h
    refine ⟨fun e => by simp [h], fun out ho => ?_⟩
    simp only [Except.ok.injEq] at ho
    subst ho
    refine ⟨by simp [h], fun i r s hr hs => ?_⟩
    rw [List.getElem?_zipWith_eq_some]
    exact ⟨r, s, hr, hs, rfl⟩

example : calcErrAbs ([2, 3] : List ℚ) [5, 7] = .ok [10, 21] := by decide +kernel

end Props
