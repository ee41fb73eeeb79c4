/- Properties C67-C77 and C132-C135: reading FISPACT output files. -/
import Verif.Model.FispactOutput
import Verif.Model.Constants
import Verif.Proofs.Except
import Verif.Proofs.MapM
import Verif.Proofs.Dict
import Verif.Proofs.Printlib
import Verif.Proofs.NeutUtilities
import Verif.Props.NeutUtilities
import Mathlib.Tactic.Ring
import Mathlib.Tactic.NormNum
import Mathlib.Tactic.FieldSimp
import Mathlib.Algebra.BigOperators.Group.List.Lemmas
import Mathlib.Algebra.BigOperators.Ring.List
import Mathlib.Algebra.BigOperators.GroupWithZero.Action

set_option linter.unusedSectionVars false
set_option linter.unusedSimpArgs false

namespace Props
open Py FispactOutput NeutUtilities
variable {K : Type} [Field K] [LinearOrder K] [IsStrictOrderedRing K]

/-! ### C67 -/

/-- C67: the old version is reported exactly when one of the first fifty lines has its banner. -/
theorem C67_version (data : List Str) :
    (checkFispVersion data = p!"FISP07" ↔ ∃ i < 50, ∃ l, data[i]? = some l ∧ p!"FISPACT VERSION 07.0/0" <:+: l) ∧
    (checkFispVersion data = p!"FISP07" ∨ checkFispVersion data = p!"FISPACT-II") ∧
    (isFisII data = true ↔ ¬ checkFispVersion data = p!"FISP07") := by
  have hne : p!"FISPACT-II" ≠ p!"FISP07" := by decide
  refine ⟨?_, ?_, ?_⟩
  · unfold checkFispVersion
    constructor
    · intro h
      split at h
      · rename_i hx
        rw [List.find?_isSome] at hx
        obtain ⟨l, hl, hs⟩ := hx
        obtain ⟨i, hi, rfl⟩ := List.mem_iff_getElem.1 hl
        simp only [List.length_take] at hi
        refine ⟨i, by omega, _, ?_, hasSub_iff.1 hs⟩
        rw [List.getElem_take, List.getElem?_eq_getElem]
      · exact absurd h hne
    · rintro ⟨i, hi, l, hl, hs⟩
      rw [if_pos]
      rw [List.find?_isSome]
      refine ⟨l, ?_, hasSub_iff.2 hs⟩
      rw [List.mem_iff_getElem?]
      exact ⟨i, by rw [List.getElem?_take_of_lt hi, hl]⟩
  · unfold checkFispVersion; split <;> simp
  · unfold isFisII
    have : checkFispVersion data = p!"FISP07" ∨ checkFispVersion data = p!"FISPACT-II" := by
      unfold checkFispVersion; split <;> simp
    rcases this with h | h <;> rw [h] <;> decide

/-- C67: lines after the fiftieth never matter. -/
theorem C67_first_fifty (d1 d2 : List Str) (h : d1.take 50 = d2.take 50) :
    checkFispVersion d1 = checkFispVersion d2 ∧ isFisII d1 = isFisII d2 := by
  have : checkFispVersion d1 = checkFispVersion d2 := by unfold checkFispVersion; rw [h]
  exact ⟨this, by unfold isFisII; rw [this]⟩

example : checkFispVersion [p!"x", p!"1 FISPACT VERSION 07.0/0 "] = p!"FISP07" := by decide
example : isFisII [p!"x"] = true := by decide
example : isFisII (List.replicate 50 [] ++ [p!"1 FISPACT VERSION 07.0/0 "]) = true := by decide

/-! ### C68 -/

/-- The line that starts the summary. -/
def summaryBanner (fisII : Bool) : Str := if fisII then p!" -----Irradiation Phase-----" else p!"  COOLING STEPS"

/-- C68: the block found starts at the first banner line and ends at the first mass line; without banner ValueError, without
    mass line StopIteration. -/
theorem C68_summary_block_partial (data : List Str) (f : Bool) :
    (∀ s e, findSummaryBlock data f = .ok (s, e) ↔
      Spec.IsLeast (fun j => data[j]? = some (summaryBanner f)) s ∧
      Spec.IsLeast (fun j => ∃ l, data[j]? = some l ∧ p!"0 Mass" <:+: l) e) ∧
    (∀ x, findSummaryBlock data f = .error x ↔
      (x = .ValueError ∧ summaryBanner f ∉ data) ∨
      (x = .StopIteration ∧ summaryBanner f ∈ data ∧ ∀ l ∈ data, ¬ p!"0 Mass" <:+: l)) := by
  have h1 : ∀ s, data.findIdx? (fun l => l == summaryBanner f) = some s ↔
      Spec.IsLeast (fun j => data[j]? = some (summaryBanner f)) s := by
    intro s; rw [findIdx?_isLeast]; simp
  have h2 : ∀ e, data.findIdx? (fun l => hasSub p!"0 Mass" l) = some e ↔
      Spec.IsLeast (fun j => ∃ l, data[j]? = some l ∧ p!"0 Mass" <:+: l) e := by
    intro e; rw [findIdx?_isLeast]; simp only [hasSub_iff]
  have h3 : data.findIdx? (fun l => l == summaryBanner f) = none ↔ summaryBanner f ∉ data := by
    rw [List.findIdx?_eq_none_iff]
    constructor
    · intro h hm; simpa using h _ hm
    · intro h l hl; simp only [beq_eq_false_iff_ne, ne_eq]; rintro rfl; exact h hl
  have h4 : data.findIdx? (fun l => hasSub p!"0 Mass" l) = none ↔ ∀ l ∈ data, ¬ p!"0 Mass" <:+: l := by
    rw [List.findIdx?_eq_none_iff]; simp only [hasSub_false_iff]
  have hm : summaryBanner f ∈ data ↔ ∃ s, data.findIdx? (fun l => l == summaryBanner f) = some s := by
    rw [← not_iff_not, ← h3, ← Option.isSome_iff_exists, Bool.not_eq_true, Option.isSome_eq_false_iff, Option.isNone_iff_eq_none]
  have hdef : findSummaryBlock data f = (do
      let s ← orErr .ValueError (data.findIdx? (fun l => l == summaryBanner f))
      let e ← orErr .StopIteration (data.findIdx? (fun l => hasSub p!"0 Mass" l))
      pure (s, e)) := rfl
  constructor
  · intro s e
    rw [hdef, ← h1, ← h2]
    simp only [ex_bind_ok, orErr_ok_iff, ex_pure, Except.ok.injEq, Prod.mk.injEq]
    constructor
    · rintro ⟨s', hs, e', he, rfl, rfl⟩; exact ⟨hs, he⟩
    · rintro ⟨hs, he⟩; exact ⟨s, hs, e, he, rfl, rfl⟩
  · intro x
    rw [hdef, ← h3, ← h4, hm]
    simp only [ex_bind_err, orErr_err_iff, orErr_ok_iff, ex_pure, reduceCtorEq, and_false, exists_false, or_false]
    tauto

/-- C68 fails: when only the mass line is missing the exception is StopIteration, not ValueError. -/
theorem C68_missing_end_violated :
    ∃ (data : List Str) (f : Bool), (∀ l ∈ data, ¬ p!"0 Mass" <:+: l) ∧ findSummaryBlock data f = .error .StopIteration ∧
      Err.StopIteration ≠ Err.ValueError :=
  ⟨[p!" -----Irradiation Phase-----"], true, by
    intro l hl; rw [← hasSub_false_iff]; revert l; decide, by decide, by decide⟩

example : findSummaryBlock [p!"x", p!" -----Irradiation Phase-----", p!"r", p!"0 Mass of"] true = .ok (1, 3) := by decide
example : findSummaryBlock [p!"x", p!"0 Mass of"] true = .error .ValueError := by decide

/-! ### C69 -/

/-- C69: for a base column other than those written, the new columns are the base column times the length of a year of 365.4 days
    in days, hours and seconds, they agree with each other, and all other columns are unchanged. -/
theorem C69_time_columns_partial (cols : Dict Str (List K)) (base : Str) (c : List K) (hc : cols.get base = some c)
    (hb : base ≠ p!"time_days" ∧ base ≠ p!"time_hours") :
    ∃ out : Dict Str (List K), addTimeColumns (.frame cols) base = .ok out ∧
      out.get p!"time_days" = some (c.map (fun y => y * 365.4)) ∧
      (∃ d h s : List K, out.get p!"time_days" = some d ∧ out.get p!"time_hours" = some h ∧ out.get p!"time_secs" = some s ∧
        h = d.map (fun x => x * 24) ∧ s = h.map (fun x => x * 3600) ∧ d.length = c.length) ∧
      (∀ k, k ≠ p!"time_days" → k ≠ p!"time_hours" → k ≠ p!"time_secs" → out.get k = cols.get k) := by
  obtain ⟨hb1, hb2⟩ := hb
  have d12 : p!"time_days" ≠ p!"time_hours" := by decide
  have d13 : p!"time_days" ≠ p!"time_secs" := by decide
  have d23 : p!"time_hours" ≠ p!"time_secs" := by decide
  refine ⟨((cols.set p!"time_days" (c.map (· * 365.4))).set p!"time_hours" (c.map (· * (365.4 * 24)))).set p!"time_secs"
    (c.map (· * (365.4 * 24 * 3600))), ?_, ?_, ?_, ?_⟩
  · simp [addTimeColumns, hc, orErr, Dict.get_set_ne _ _ hb1, Dict.get_set_ne _ _ hb2, bind, Except.bind, pure, Except.pure]
  · rw [Dict.get_set_ne _ _ d13, Dict.get_set_ne _ _ d12, Dict.get_set_self]
  · refine ⟨c.map (· * 365.4), c.map (· * (365.4 * 24)), c.map (· * (365.4 * 24 * 3600)), ?_, ?_, ?_, ?_, ?_, by simp⟩
    · rw [Dict.get_set_ne _ _ d13, Dict.get_set_ne _ _ d12, Dict.get_set_self]
    · rw [Dict.get_set_ne _ _ d23, Dict.get_set_self]
    · rw [Dict.get_set_self]
    · rw [List.map_map]; apply List.map_congr_left; intro y _; simp only [Function.comp]; rw [mul_assoc]
    · rw [List.map_map]; apply List.map_congr_left; intro y _; simp only [Function.comp]; ring
  · intro k h1 h2 h3
    rw [Dict.get_set_ne _ _ h3, Dict.get_set_ne _ _ h2, Dict.get_set_ne _ _ h1]

/-- C69: another object or a missing base column raises ValueError. -/
theorem C69_bad_argument (cols : Dict Str (List K)) (base : Str) :
    addTimeColumns (.other : TArg K) base = .error .ValueError ∧
    (base ∉ cols.keys → addTimeColumns (.frame cols) base = .error .ValueError) := by
  refine ⟨rfl, fun h => ?_⟩
  simp [addTimeColumns, Dict.get_eq_none_iff.2 h, bind, Except.bind]

/-- C69 fails: a year has another length than in the unit conversions of neut_constants.py. -/
theorem C69_year_length_violated (y : K) (hy : y ≠ 0) :
    ∃ out : Dict Str (List K), addTimeColumns (.frame [(p!"time_years", [y])]) p!"time_years" = .ok out ∧
      out.get p!"time_days" ≠ some [Constants.yearsToDays y] := by
  obtain ⟨out, h1, h2, _⟩ := C69_time_columns_partial (K := K) [(p!"time_years", [y])] p!"time_years" [y] rfl (by decide)
  refine ⟨out, h1, ?_⟩
  rw [h2]
  simp only [List.map_cons, List.map_nil, ne_eq, Option.some.injEq, List.cons.injEq, and_true, Constants.yearsToDays]
  intro h
  have := mul_left_cancel₀ hy h
  norm_num at this

/-- C69 fails: with the base column time_days the columns written earlier change the base, and hours are not 24 times the days. -/
theorem C69_overwritten_base_violated :
    ∃ (cols out : Dict Str (List ℚ)) (d h : List ℚ), addTimeColumns (.frame cols) p!"time_days" = .ok out ∧
      out.get p!"time_days" = some d ∧ out.get p!"time_hours" = some h ∧ h ≠ d.map (fun x => x * 24) :=
  ⟨[(p!"time_days", [1])], [(p!"time_days", [365.4]), (p!"time_hours", [365.4 * (365.4 * 24)]),
    (p!"time_secs", [365.4 * (365.4 * 24 * 3600)])], [365.4], [365.4 * (365.4 * 24)], by decide +kernel, by decide +kernel,
    by decide +kernel, by decide +kernel⟩

example : addTimeColumns (.frame [(p!"time_years", [(1 : ℚ), 2]), (p!"act", [3, 4])]) p!"time_years" =
    .ok [(p!"time_years", [1, 2]), (p!"act", [3, 4]), (p!"time_days", [365.4, 730.8]), (p!"time_hours", [8769.6, 17539.2]),
      (p!"time_secs", [31570560, 63141120])] := by decide +kernel

/-! ### C71 -/

/-- C71: the cooling rows are exactly the flagged rows, in order. -/
theorem C71_retrieve (t : List (Nat × SumRow K)) :
    (retrieveCoolingData t).Sublist t ∧ (∀ r, r ∈ retrieveCoolingData t ↔ r ∈ t ∧ r.2.cooling = true) ∧
    (∀ r ∈ t, (retrieveCoolingData t).count r = if r.2.cooling then t.count r else 0) := by
  refine ⟨List.filter_sublist, by simp [retrieveCoolingData], ?_⟩
  intro r _
  unfold retrieveCoolingData
  split
  · rename_i h; exact List.count_filter (p := fun r : Nat × SumRow K => r.2.cooling) h
  · rename_i h
    rw [List.count_eq_zero]
    simp only [List.mem_filter, not_and]
    intro _; exact h

/-- C71: the index found is the label of the first flagged row, and there is none iff no row is flagged. -/
theorem C71_first_index (t : List (Nat × SumRow K)) :
    (∀ i, findFirstCoolingIndex t = some i ↔
      ∃ (k : Nat) (r : SumRow K), t[k]? = some (i, r) ∧ r.cooling = true ∧ ∀ j < k, ∀ q : Nat × SumRow K, t[j]? = some q → q.2.cooling = false) ∧
    (findFirstCoolingIndex t = none ↔ ∀ r ∈ t, r.2.cooling = false) := by
  have hf : findFirstCoolingIndex t = (t.find? (fun r => r.2.cooling)).map (·.1) := by
    rw [← List.head?_filter]; unfold findFirstCoolingIndex
    cases t.filter (fun r => r.2.cooling) <;> rfl
  constructor
  · intro i
    rw [hf, Option.map_eq_some_iff]
    constructor
    · rintro ⟨⟨i', r⟩, h, rfl⟩
      rw [List.find?_eq_some_iff_getElem] at h
      obtain ⟨hr, k, hk, he, hb⟩ := h
      refine ⟨k, r, by rw [List.getElem?_eq_getElem hk, he], hr, ?_⟩
      intro j hj q hq
      have := hb j hj
      rw [List.getElem?_eq_getElem (by omega)] at hq
      simp only [Option.some.injEq] at hq
      subst hq; simpa using this
    · rintro ⟨k, r, hk, hr, hb⟩
      refine ⟨(i, r), ?_, rfl⟩
      rw [List.find?_eq_some_iff_getElem]
      obtain ⟨hk', he⟩ := List.getElem?_eq_some_iff.1 hk
      refine ⟨hr, k, hk', he, ?_⟩
      intro j hj
      simp only [Bool.not_eq_true', hb j hj _ (List.getElem?_eq_getElem (by omega))]
  · rw [hf, Option.map_eq_none_iff, List.find?_eq_none]
    simp

example : findFirstCoolingIndex ([(0, ⟨1, 0, 0, 0, 0, 0, 0, false, 0, 0, 0⟩), (1, ⟨1, 0, 0, 0, 0, 0, 0, true, 0, 0, 0⟩)] :
    List (Nat × SumRow ℚ)) = some 1 := by decide +kernel

/-! ### C73 -/

/-- A header of the gamma spectrum at line `p`, with all its lines present. -/
def SpectrumAt (data : List Str) (p : Nat) : Prop :=
  Spec.IsLeast (fun j => ∃ l, data[j]? = some l ∧ p!"GAMMA SPECTRUM AND ENERGIES/SECOND" <:+: l) p

private theorem findInd_ok_ne_nil {data : List Str} {sub : Str} {p : Nat} (h : findInd data sub = .ok p) : data ≠ [] := by
  rintro rfl
  rw [C05_find_ind_ok] at h
  obtain ⟨⟨s, hs, _⟩, _⟩ := h
  simp at hs

private theorem nil_guard {α : Type} {data : List Str} {sub : Str} {f : Nat → Except Err α} :
    (do if data = [] then Except.error Err.ValueError
        let p ← findInd data sub
        f p : Except Err α) = (findInd data sub >>= f) := by
  by_cases hd : data = []
  · subst hd
    have : findInd [] sub = .error .ValueError := (C05_find_ind_error [] sub _).2 ⟨rfl, by simp⟩
    simp [this, bind, Except.bind]
  · simp [hd]

/-- C73: 24 values, those of columns 130-141 of the 24 lines starting seven lines after the first header. -/
theorem C73_spectrum (flt : Str → Option K) (data : List Str) (xs : List K) :
    parseSpectra flt data = .ok xs ↔ ∃ p, SpectrumAt data p ∧ p + 31 ≤ data.length ∧ xs.length = 24 ∧
      ∀ k < 24, ∃ l x, data[p + 7 + k]? = some l ∧ xs[k]? = some x ∧ flt ((l.drop 130).take 11) = some x := by
  unfold parseSpectra
  rw [nil_guard, ex_bind_ok]
  have key : ∀ p, p + 31 ≤ data.length → ((slice data (p + 7) (p + 31)).mapM (fun l => fltE flt (slice l 130 141)) = .ok xs ↔
      xs.length = 24 ∧
      ∀ k < 24, ∃ l x, data[p + 7 + k]? = some l ∧ xs[k]? = some x ∧ flt ((l.drop 130).take 11) = some x) := by
    intro p hp
    have hlen : (slice data (p + 7) (p + 31)).length = 24 := by simp [slice]; omega
    have hget : ∀ k < 24, (slice data (p + 7) (p + 31))[k]? = data[p + 7 + k]? := by
      intro k hk
      unfold slice
      rw [List.getElem?_drop, List.getElem?_take_of_lt (by omega)]
    have hsl : ∀ l : Str, slice l 130 141 = (l.drop 130).take 11 := by
      intro l; unfold slice; rw [List.drop_take]
    rw [mapM_except_ok_iff, List.forall₂_iff_get]
    simp only [fltE, orErr_ok_iff, hsl]
    constructor
    · rintro ⟨h1, h2⟩
      refine ⟨by omega, fun k hk => ?_⟩
      have := h2 k (by omega) (by omega)
      refine ⟨_, _, ?_, ?_, this⟩
      · rw [← hget k hk, List.getElem?_eq_getElem (by omega)]; rfl
      · rw [List.getElem?_eq_getElem (by omega)]; rfl
    · rintro ⟨h1, h2⟩
      refine ⟨by omega, fun k hk1 hk2 => ?_⟩
      obtain ⟨l, x, hl, hx, hf⟩ := h2 k (by omega)
      rw [← hget k (by omega), List.getElem?_eq_getElem hk1] at hl
      rw [List.getElem?_eq_getElem hk2] at hx
      simp only [Option.some.injEq] at hl hx
      simp only [List.get_eq_getElem, hl, hx, hf]
  constructor
  · rintro ⟨p, hp, h⟩
    by_cases hl : data.length < p + 31
    · simp [hl, bind, Except.bind] at h
    · simp only [hl, if_false, ex_pure, ex_ok_bind] at h
      exact ⟨p, (C05_find_ind_ok _ _ _).1 hp, by omega, (key p (by omega)).1 h⟩
  · rintro ⟨p, hp, hl, h⟩
    refine ⟨p, (C05_find_ind_ok _ _ _).2 hp, ?_⟩
    simp only [show ¬ data.length < p + 31 by omega, if_false, ex_pure, ex_ok_bind]
    exact (key p hl).2 h

/-- C73: the only exception is ValueError. -/
theorem C73_error (flt : Str → Option K) (data : List Str) (e : Err) (h : parseSpectra flt data = .error e) :
    e = .ValueError := by
  unfold parseSpectra at h
  rw [nil_guard, ex_bind_err] at h
  rcases h with h | ⟨p, hp, h⟩
  · exact ((C05_find_ind_error _ _ _).1 h).1
  · by_cases hl : data.length < p + 31
    · simp [hl, bind, Except.bind] at h; exact h.symm
    · simp only [hl, if_false, ex_pure, ex_ok_bind] at h
      obtain ⟨l, _, hx⟩ := mapM_except_err h
      exact (orErr_err_iff.1 hx).2

example : parseSpectra (fun _ => some (1 : ℚ)) (p!"GAMMA SPECTRUM AND ENERGIES/SECOND" :: List.replicate 30 []) =
    .ok (List.replicate 24 1) := by decide +kernel
example : parseSpectra (fun _ => some (1 : ℚ)) (p!"GAMMA SPECTRUM AND ENERGIES/SECOND" :: List.replicate 29 []) =
    .error .ValueError := by decide +kernel

/-! ### C74 -/

/-- The row expected for a line of the inventory. -/
def InvRowOf (flt : Str → Option K) (l : Str) (r : InvRow K) : Prop :=
  flt ((l.drop 14).take 11) = some r.atoms ∧ flt ((l.drop 28).take 9) = some r.mass ∧
  flt ((l.drop 40).take 9) = some r.act ∧ flt ((l.drop 52).take 9) = some r.bEnergy ∧
  flt ((l.drop 64).take 8) = some r.aEnergy ∧ flt ((l.drop 75).take 9) = some r.gEnergy ∧
  flt ((l.drop 87).take 9) = some r.dose ∧
  r.element = strip ((l.drop 2).take 2) ∧ r.a = strip ((l.drop 4).take 4) ∧
  r.nuclide = ((l.drop 2).take 6).filter (fun c => c ≠ ' ')

private theorem slice_eq_take (l : Str) (a b : Nat) : slice l a b = (l.drop a).take (b - a) := by
  unfold slice; rw [List.drop_take]

private theorem invRow_ok (flt : Str → Option K) (l : Str) (r : InvRow K) : invRow flt l = .ok r ↔ InvRowOf flt l r := by
  unfold invRow InvRowOf
  simp only [ex_bind_ok, fltE, orErr_ok_iff, ex_pure, Except.ok.injEq, slice_eq_take, Printlib.replace_space, Nat.sub_zero,
    List.drop_zero, List.take_take, List.drop_take, List.drop_drop]
  norm_num
  obtain ⟨n, at_, m, ac, b, al, g, d, el, a⟩ := r
  simp only [InvRow.mk.injEq]
  constructor
  · rintro ⟨_, h1, _, h2, _, h3, _, h4, _, h5, _, h6, _, h7, rfl, rfl, rfl, rfl, rfl, rfl, rfl, rfl, rfl, rfl⟩
    exact ⟨h1, h2, h3, h4, h5, h6, h7, rfl, rfl, rfl⟩
  · rintro ⟨h1, h2, h3, h4, h5, h6, h7, rfl, rfl, rfl⟩
    exact ⟨_, h1, _, h2, _, h3, _, h4, _, h5, _, h6, _, h7, rfl, rfl, rfl, rfl, rfl, rfl, rfl, rfl, rfl, rfl⟩

private theorem invRow_err (flt : Str → Option K) (l : Str) (e : Err) (h : invRow flt l = .error e) : e = .ValueError := by
  unfold invRow at h
  simp only [ex_bind_err, fltE, orErr_err_iff, orErr_ok_iff, ex_pure, reduceCtorEq, and_false, exists_false, or_false] at h
  tauto

/-- C74: one row for each line between the fourth line and the total line. -/
theorem C74_inventory (flt : Str → Option K) (data : List Str) (rows : List (InvRow K)) :
    parseInventory flt data = .ok rows ↔
      ∃ p, Spec.IsLeast (fun j => ∃ l, data[j]? = some l ∧ p!"0  TOTAL NUMBER OF NUCLIDES PRINTED IN INVENTORY" <:+: l) p ∧
        List.Forall₂ (InvRowOf flt) ((data.take p).drop 4) rows := by
  unfold parseInventory
  rw [nil_guard, ex_bind_ok]
  constructor
  · rintro ⟨p, hp, h⟩
    refine ⟨p, (C05_find_ind_ok _ _ _).1 hp, ?_⟩
    rw [mapM_except_ok_iff] at h
    exact h.imp (fun a b => (invRow_ok flt a b).1)
  · rintro ⟨p, hp, h⟩
    refine ⟨p, (C05_find_ind_ok _ _ _).2 hp, ?_⟩
    rw [mapM_except_ok_iff]
    exact h.imp (fun a b => (invRow_ok flt a b).2)

/-- C74: every failure is a ValueError, so there is never a partial result. -/
theorem C74_error (flt : Str → Option K) (data : List Str) (e : Err) (h : parseInventory flt data = .error e) :
    e = .ValueError := by
  unfold parseInventory at h
  rw [nil_guard, ex_bind_err] at h
  rcases h with h | ⟨p, hp, h⟩
  · exact ((C05_find_ind_error _ _ _).1 h).1
  · obtain ⟨l, _, hx⟩ := mapM_except_err h
    exact invRow_err flt l e hx

private theorem filter_strip (s : Str) (h : ∀ c ∈ s, isSpace c = true → c = ' ') :
    (strip s).filter (fun c => c ≠ ' ') = s.filter (fun c => c ≠ ' ') := by
  obtain ⟨a, b, hs, ha, hb⟩ := strip_decomp s
  have ha' : a.filter (fun c => decide (c ≠ ' ')) = [] := by
    rw [List.filter_eq_nil_iff]
    intro c hc
    simp [h c (by rw [hs]; simp [hc]) (ha c hc)]
  have hb' : b.filter (fun c => decide (c ≠ ' ')) = [] := by
    rw [List.filter_eq_nil_iff]
    intro c hc
    simp [h c (by rw [hs]; simp [hc]) (hb c hc)]
  conv_rhs => rw [hs]
  rw [List.filter_append, List.filter_append, ha', hb']
  simp

/-- C74: the nuclide name is the element symbol followed by the mass label, without blanks. -/
theorem C74_names (flt : Str → Option K) (l : Str) (r : InvRow K) (h : InvRowOf flt l r)
    (hl : ∀ c ∈ l, isSpace c = true → c = ' ') :
    r.nuclide = (r.element ++ r.a).filter (fun c => c ≠ ' ') := by
  obtain ⟨-, -, -, -, -, -, -, h1, h2, h3⟩ := h
  have hsub : ∀ (a n : Nat) (c : Char), c ∈ (l.drop a).take n → isSpace c = true → c = ' ' := by
    intro a n c hc
    exact hl c (List.mem_of_mem_drop (List.mem_of_mem_take hc))
  rw [List.filter_append, h1, h2, h3, filter_strip _ (hsub 2 2), filter_strip _ (hsub 4 4), ← List.filter_append]
  congr 1
  have h6 : ((l.drop 2).take 6) = ((l.drop 2).take 2) ++ ((l.drop 2).drop 2).take 4 := by
    rw [← List.take_add]
  rw [h6, List.drop_drop]

/-- A sample inventory line for the examples. -/
def exInvLine : Str := p!"  H   3       1.00000E+00   2.00E+00    3.00E+00    4.00E+00    5.00E+0    6.00E+00    7.00E+00"

example : parseInventory (fun _ => some (1 : ℚ)) [[], [], [], [], exInvLine,
    p!"0  TOTAL NUMBER OF NUCLIDES PRINTED IN INVENTORY =    1"] =
    .ok [⟨p!"H3", 1, 1, 1, 1, 1, 1, 1, p!"H", p!"3"⟩] := by decide +kernel

/-! ### C76 -/

/-- `w` is the text between the first and the second "=" (or the end) of the line, cut at the first blank after removing white
    space at both ends. -/
def ParamText (line w : Str) : Prop :=
  ∃ a b v, line = a ++ '=' :: b ∧ '=' ∉ a ∧ FirstPiece '=' b v ∧ FirstPiece ' ' (strip v) w

private theorem readParameter_eq (flt : Str → Option K) (data : List Str) (sub : Str) :
    readParameter flt data sub = (findInd data sub >>= fun i => do
      let line ← orErr .IndexError data[i]?
      if (splitOn '=' line).length < 2 then .error .ValueError
      let v ← orErr .IndexError (splitOn '=' line)[1]?
      let w ← orErr .ValueError (splitOn ' ' (strip v))[0]?
      fltE flt w) := by
  unfold readParameter
  rw [nil_guard]

/-- C76: the value is the number in the text after the first "=" of the first line with the label. -/
theorem C76_parameter (flt : Str → Option K) (data : List Str) (sub : Str) (x : K) :
    readParameter flt data sub = .ok x ↔
      ∃ i line w, Spec.IsLeast (fun j => ∃ l, data[j]? = some l ∧ sub <:+: l) i ∧ data[i]? = some line ∧
        ParamText line w ∧ flt w = some x := by
  rw [readParameter_eq, ex_bind_ok]
  simp only [C05_find_ind_ok]
  constructor
  · rintro ⟨i, hi, h⟩
    rw [ex_bind_ok] at h
    obtain ⟨line, hl, h⟩ := h
    rw [orErr_ok_iff] at hl
    by_cases h2 : (splitOn '=' line).length < 2
    · simp [h2, bind, Except.bind] at h
    · simp only [h2, if_false, ex_pure, ex_ok_bind, ex_bind_ok, orErr_ok_iff, fltE] at h
      obtain ⟨v, hv, w, hw, hx⟩ := h
      obtain ⟨a, b, h1, h3, h4⟩ := splitOn_one.1 hv
      exact ⟨i, line, w, hi, hl, ⟨a, b, v, h1, h3, h4, splitOn_zero.1 hw⟩, hx⟩
  · rintro ⟨i, line, w, hi, hl, ⟨a, b, v, h1, h3, h4, h5⟩, hx⟩
    refine ⟨i, hi, ?_⟩
    have hv : (splitOn '=' line)[1]? = some v := splitOn_one.2 ⟨a, b, h1, h3, h4⟩
    have h2 : ¬ (splitOn '=' line).length < 2 := by rw [splitOn_length_lt_two, h1]; simp
    rw [hl]
    simp only [orErr, ex_ok_bind, h2, if_false, ex_pure, hv, splitOn_zero.2 h5, fltE, hx]

/-- C76: the exception is always ValueError, raised exactly when there is no line with the label, no "=" in the first such line,
    or no number after it. -/
theorem C76_error (flt : Str → Option K) (data : List Str) (sub : Str) (e : Err) :
    readParameter flt data sub = .error e ↔ e = .ValueError ∧
      ((∀ l ∈ data, ¬ sub <:+: l) ∨
       ∃ i line, Spec.IsLeast (fun j => ∃ l, data[j]? = some l ∧ sub <:+: l) i ∧ data[i]? = some line ∧
        ('=' ∉ line ∨ ∃ w, ParamText line w ∧ flt w = none)) := by
  rw [readParameter_eq, ex_bind_err]
  simp only [C05_find_ind_ok, C05_find_ind_error]
  have hpiece : ∀ c s, ∃ w, (splitOn c s)[0]? = some w := by
    intro c s
    cases hs : splitOn c s with
    | nil => exact absurd hs (splitP_ne_nil _ _)
    | cons x xs => exact ⟨x, rfl⟩
  constructor
  · rintro (⟨h1, h2⟩ | ⟨i, hi, h⟩)
    · exact ⟨h1, Or.inl h2⟩
    · rw [ex_bind_err] at h
      rcases h with h | ⟨line, hl, h⟩
      · exfalso
        obtain ⟨⟨s, hs, _⟩, _⟩ := hi
        rw [hs] at h; simp [orErr] at h
      · rw [orErr_ok_iff] at hl
        by_cases h2 : (splitOn '=' line).length < 2
        · simp only [h2, if_true, ex_err_bind, Except.error.injEq] at h
          exact ⟨h.symm, Or.inr ⟨i, line, hi, hl, Or.inl (splitOn_length_lt_two.1 h2)⟩⟩
        · obtain ⟨v, hv⟩ : ∃ v, (splitOn '=' line)[1]? = some v :=
            ⟨_, List.getElem?_eq_getElem (by omega)⟩
          obtain ⟨w, hw⟩ := hpiece ' ' (strip v)
          simp only [h2, if_false, ex_pure, ex_ok_bind, hv, hw, orErr, fltE] at h
          obtain ⟨a, b, g1, g2, g3⟩ := splitOn_one.1 hv
          cases hf : flt w with
          | some x => rw [hf] at h; simp at h
          | none =>
            rw [hf] at h
            simp only [Except.error.injEq] at h
            exact ⟨h.symm, Or.inr ⟨i, line, hi, hl, Or.inr ⟨w, ⟨a, b, v, g1, g2, g3, splitOn_zero.1 hw⟩, hf⟩⟩⟩
  · rintro ⟨rfl, h | ⟨i, line, hi, hl, h⟩⟩
    · exact Or.inl ⟨rfl, h⟩
    · right
      refine ⟨i, hi, ?_⟩
      rw [hl]
      rcases h with h | ⟨w, ⟨a, b, v, g1, g2, g3, g4⟩, hf⟩
      · simp only [orErr, ex_ok_bind, splitOn_length_lt_two.2 h, if_true, ex_err_bind]
      · have hv : (splitOn '=' line)[1]? = some v := splitOn_one.2 ⟨a, b, g1, g2, g3⟩
        have h2 : ¬ (splitOn '=' line).length < 2 := by rw [splitOn_length_lt_two, g1]; simp
        simp only [orErr, ex_ok_bind, h2, if_false, ex_pure, hv, splitOn_zero.2 g4, fltE, hf]

example : readParameter (fun s => if s = p!"1.5E3" then some (1500 : ℚ) else none)
    [p!"x", p!"Mean flux =  1.5E3 n/cm2 = 7"] p!"Mean flux" = .ok 1500 := by decide +kernel
example : readParameter (fun _ => some (1500 : ℚ)) [p!"x", p!"Mean flux  1.5E3"] p!"Mean flux" = .error .ValueError := by
  decide +kernel

end Props
