/- Properties C34-C38 of fispact_fluxes_writer.py. -/
import Verif.Proofs.FluxesWriter
import Verif.Props.NeutUtilities
import Mathlib.Algebra.BigOperators.Group.List.Basic
import Mathlib.Tactic.Ring

namespace Props
open Py FluxesWriter Spec

/-! ### C34 -/

section
variable {K : Type} [LinearOrder K]

/-- C34: within the range the result is the one bin that contains the energy. -/
theorem C34_bin (gs : List K) (hd : gs.Pairwise (· > ·)) (e top bottom : K) (ht : gs.head? = some top)
    (hb : gs.getLast? = some bottom) (h1 : e ≤ top) (h2 : bottom < e) :
    ∃ i : Nat, getGroupPos (some gs) (some e) = .ok (i : Int) ∧ InBin gs e i ∧ ∀ j, InBin gs e j → j = i := by
  cases gs with
  | nil => simp at ht
  | cons g gs =>
    simp at ht
    subst ht
    rw [List.getLast?_eq_some_getLast (by simp)] at hb
    simp only [Option.some.injEq] at hb
    subst hb
    obtain ⟨i, hi, hb⟩ := getGroupPos_in_range h1 h2
    exact ⟨i, hi, hb, fun j hj => le_antisymm (inBin_unique hd hb hj le_rfl) (inBin_unique hd hj hb le_rfl)⟩

/-- C34: outside the range the first or the last bin is returned. -/
theorem C34_outside (gs : List K) (hd : gs.Pairwise (· > ·)) (hlen : 2 ≤ gs.length) (e top bottom : K)
    (ht : gs.head? = some top) (hb : gs.getLast? = some bottom) :
    (top < e → getGroupPos (some gs) (some e) = .ok 0) ∧
    (e ≤ bottom → getGroupPos (some gs) (some e) = .ok ((gs.length : Int) - 2)) := by
  cases gs with
  | nil => simp at ht
  | cons g gs =>
    simp at ht
    subst ht
    rw [List.getLast?_eq_some_getLast (by simp)] at hb
    simp only [Option.some.injEq] at hb
    subst hb
    constructor
    · intro h; simp only [getGroupPos]; rw [if_pos h]
    · intro h
      have hmem : (g :: gs).getLast (by simp) ∈ gs := by
        cases gs with
        | nil => simp at hlen
        | cons x xs => rw [List.getLast_cons (by simp)]; exact List.getLast_mem _
      have : (g :: gs).getLast (by simp) < g := (List.pairwise_cons.1 hd).1 _ hmem
      simp only [getGroupPos]
      rw [if_neg (not_lt.2 (le_trans h (le_of_lt this))), if_pos h]
      simp

/-- C34: for a number the result is always a valid bin index (never -1), and higher energies never get higher bins. -/
theorem C34_total_monotone (gs : List K) (hd : gs.Pairwise (· > ·)) (hlen : 2 ≤ gs.length) (e e' : K) (hee : e ≤ e') :
    ∃ i i' : Nat, getGroupPos (some gs) (some e) = .ok (i : Int) ∧ getGroupPos (some gs) (some e') = .ok (i' : Int) ∧
      i + 1 < gs.length ∧ i' + 1 < gs.length ∧ i' ≤ i := by
  obtain ⟨top, ht⟩ : ∃ t, gs.head? = some t := by cases gs with
    | nil => simp at hlen
    | cons g gs => exact ⟨g, rfl⟩
  obtain ⟨bottom, hb⟩ : ∃ t, gs.getLast? = some t := by cases gs with
    | nil => simp at hlen
    | cons g gs => exact ⟨_, List.getLast?_eq_some_getLast (by simp)⟩
  have hcast : ((gs.length : Int) - 2) = ((gs.length - 2 : Nat) : Int) := by omega
  have hin : ∀ {x i}, InBin gs x i → i + 1 < gs.length := by
    rintro x i ⟨a, b, _, hb, _⟩
    rw [List.getElem?_eq_some_iff] at hb
    exact hb.1
  obtain ⟨h1, h2⟩ := C34_outside gs hd hlen e top bottom ht hb
  obtain ⟨h1', h2'⟩ := C34_outside gs hd hlen e' top bottom ht hb
  by_cases ha' : top < e'
  · by_cases ha : top < e
    · exact ⟨0, 0, h1 ha, h1' ha', by omega, by omega, le_rfl⟩
    · by_cases hb : e ≤ bottom
      · exact ⟨gs.length - 2, 0, by rw [h2 hb, hcast], h1' ha', by omega, by omega, by omega⟩
      · obtain ⟨i, hi, hbin, _⟩ := C34_bin gs hd e top bottom ht ‹_› (not_lt.1 ha) (not_le.1 hb)
        exact ⟨i, 0, hi, h1' ha', hin hbin, by omega, by omega⟩
  · have ha : ¬ top < e := fun h => ha' (lt_of_lt_of_le h hee)
    by_cases hc : e ≤ bottom
    · by_cases hc' : e' ≤ bottom
      · exact ⟨gs.length - 2, gs.length - 2, by rw [h2 hc, hcast], by rw [h2' hc', hcast], by omega, by omega, le_rfl⟩
      · obtain ⟨i, hi, hbin, _⟩ := C34_bin gs hd e' top bottom ht ‹_› (not_lt.1 ha') (not_le.1 hc')
        have := hin hbin
        exact ⟨gs.length - 2, i, by rw [h2 hc, hcast], hi, by omega, by omega, by omega⟩
    · have hc' : ¬ e' ≤ bottom := fun h => hc (le_trans hee h)
      obtain ⟨i, hi, hbin, _⟩ := C34_bin gs hd e top bottom ht ‹_› (not_lt.1 ha) (not_le.1 hc)
      obtain ⟨i', hi', hbin', _⟩ := C34_bin gs hd e' top bottom ht ‹_› (not_lt.1 ha') (not_le.1 hc')
      exact ⟨i, i', hi, hi', hin hbin, hin hbin', inBin_unique hd hbin hbin' hee⟩

/-- C34: the upper bound check, and the rejected arguments. -/
theorem C34_upper_bound (g e : K) (gs : List K) :
    checkUpperBound (some (g :: gs)) (some e) = .ok (decide (e ≤ g)) ∧
    getGroupPos (some ([] : List K)) (some e) = .error .ValueError ∧
    checkUpperBound (some ([] : List K)) (some e) = .error .ValueError := by
  refine ⟨?_, rfl, rfl⟩
  by_cases h : e ≤ g
  · simp [checkUpperBound, h, not_lt.2 h]
  · simp [checkUpperBound, h, not_le.1 h]

end

example : [5, 3, 1].Pairwise (· > ·) ∧ getGroupPos (some [5, 3, 1]) (some 2) = .ok 1 := by decide

/-! ### C35 -/

/-- C35: the built-in structures. -/
theorem C35_tables :
    getGroupStruct (some p!"162") = some gs162 ∧ getGroupStruct (some p!"709") = some gs709 ∧
    gs162.length = 162 ∧ gs709.length = 709 ∧
    gs162.Pairwise (· > ·) ∧ gs709.Pairwise (· > ·) ∧ (∀ x ∈ gs162, 0 < x) ∧ (∀ x ∈ gs709, 0 < x) := by
  have h1 := descending_of_scaled gs162Lits (by decide +kernel) (by decide +kernel)
  have h2 := descending_of_scaled gs709Lits (by decide +kernel) (by decide +kernel)
  refine ⟨by decide +kernel, by decide +kernel, by rw [gs162, List.length_map]; decide +kernel,
    by rw [gs709, List.length_map]; decide +kernel, h1.1, h2.1, h1.2, h2.2⟩

/-- C35: the outermost boundaries, as numbers. -/
theorem C35_ranges :
    gs162.head? = some 1000000000 ∧ gs162.getLast? = some 10000 ∧
    gs709.head? = some 1000 ∧ gs709.getLast? = some (105 / 10 ^ 13) := by
  unfold gs162 gs709
  simp only [List.head?_map, List.getLast?_map]
  have a : gs162Lits.head? = some ⟨10000, 5⟩ := by decide +kernel
  have b : gs162Lits.getLast? = some ⟨10000, 0⟩ := by decide +kernel
  have c : gs709Lits.head? = some ⟨100, 1⟩ := by decide +kernel
  have d : gs709Lits.getLast? = some ⟨105, -13⟩ := by decide +kernel
  rw [a, b, c, d]
  refine ⟨?_, ?_, ?_, ?_⟩ <;> simp only [Option.map_some, Sci.val, Option.some.injEq] <;> norm_num

/-- C35: every other name is refused by both functions. -/
theorem C35_names (name : Option Str) :
    (checkGroupStruct name = true ↔ name = some p!"709" ∨ name = some p!"162") ∧
    (getGroupStruct name = none ↔ ¬ (name = some p!"709" ∨ name = some p!"162")) := by
  unfold checkGroupStruct getGroupStruct
  constructor
  · by_cases h1 : name = some p!"709" <;> by_cases h2 : name = some p!"162" <;> simp [h1, h2]
  · by_cases h1 : name = some p!"709" <;> by_cases h2 : name = some p!"162" <;> simp [h1, h2]

/-! ### C36 -/

/-- C36: ValueError exactly when the position is not an index. -/
theorem C36_domain {A : Type} (groups : List A) (i : Int) (e : Err) :
    (createFluxesData (K := ℚ) (some groups) i = .error e ↔
      e = .ValueError ∧ ¬ ∃ j : Nat, j < groups.length ∧ i = j) := by
  unfold createFluxesData
  simp only
  split
  · next h =>
    simp only [Except.error.injEq]
    constructor
    · rintro rfl; refine ⟨rfl, ?_⟩; rintro ⟨j, hj, rfl⟩; omega
    · rintro ⟨rfl, _⟩; rfl
  · next h =>
    simp only [reduceCtorEq, false_iff, not_and, not_not]
    intro _
    exact ⟨i.toNat, by omega, by omega⟩

/-- C36: one entry per group and one more; 1 at the position and at the end, 0 elsewhere; the sum is 2. -/
theorem C36_vector {A : Type} (groups : List A) (i : Nat) (hi : i < groups.length) :
    ∃ data : List ℚ, createFluxesData (some groups) (i : Int) = .ok data ∧ data.length = groups.length + 1 ∧
      (∀ j, j < data.length → data[j]? = some (if j = i ∨ j = groups.length then 1 else 0)) ∧ data.sum = 2 := by
  refine ⟨((List.replicate (groups.length + 1) 0).set i 1).set groups.length 1, ?_, by simp, ?_, ?_⟩
  · unfold createFluxesData
    simp only
    rw [if_neg (by omega)]
    simp
  · intro j hj
    simp at hj
    by_cases h1 : groups.length = j
    · subst h1; simp
    · rw [List.getElem?_set_ne h1]
      by_cases h2 : i = j
      · subst h2
        rw [List.getElem?_set_self (by simp; omega)]
        simp
      · rw [List.getElem?_set_ne h2, List.getElem?_replicate, if_pos hj, if_neg (by omega)]
  · rw [show groups.length + 1 = i + (1 + ((groups.length - i - 1) + 1)) by omega, List.replicate_add,
      List.replicate_add, List.replicate_add]
    have : groups.length = i + (1 + (groups.length - i - 1)) := by omega
    generalize groups.length - i - 1 = k at *
    have h3 : ∀ k : Nat, ((1 :: (List.replicate k 0 ++ [0])).set (1 + k) (1 : ℚ)).sum = 2 := by
      intro k
      rw [Nat.add_comm 1 k, List.set_cons_succ, List.set_append_right _ _ (by simp)]
      simp
      norm_num
    rw [this]
    simpa using h3 k

example : createFluxesData (some [(), (), ()]) 1 = .ok ([0, 1, 0, 1] : List ℚ) := by decide +kernel

/-! ### C37 -/

section
variable {K : Type} [LinearOrder K] [One K]

omit [One K] in
private theorem all_le_iff (x : K) (xs : List K) :
    ((x :: xs).zip xs).all (fun p => decide (p.1 ≤ p.2)) = true ↔ (x :: xs).IsChain (· ≤ ·) := by
  induction xs generalizing x with
  | nil => simp
  | cons y ys ih => rw [List.zip_cons_cons, List.all_cons, Bool.and_eq_true, ih]; simp

/-- C37 (part that holds): for values that never decrease the result is the reverse and a final 1; everything else is
    refused. Missing: spectra whose values are not ascending (`C37_violated`). -/
theorem C37_reverse_partial (spect : List K) :
    (spect ≠ [] → spect.Pairwise (· ≤ ·) → convertMcnpSpect (some spect) = .ok (spect.reverse ++ [1])) ∧
    (∀ r, convertMcnpSpect (some spect) = .ok r → r.dropLast.reverse = spect ∧ r.getLast? = some 1) ∧
    (∀ e, convertMcnpSpect (some spect) = .error e ↔
      e = .ValueError ∧ (spect = [] ∨ ¬ spect.Pairwise (· ≤ ·))) := by
  cases spect with
  | nil =>
    refine ⟨fun h => absurd rfl h, fun r h => by simp [convertMcnpSpect] at h, fun e => ?_⟩
    simp [convertMcnpSpect, eq_comm]
  | cons x xs =>
    have hiff : ((x :: xs).zip xs).all (fun p => decide (p.1 ≤ p.2)) = true ↔ (x :: xs).Pairwise (· ≤ ·) := by
      rw [all_le_iff, List.isChain_iff_pairwise]
    unfold convertMcnpSpect
    simp only
    by_cases h : (x :: xs).Pairwise (· ≤ ·)
    · rw [if_neg (by rw [not_not, hiff]; exact h)]
      refine ⟨fun _ _ => rfl, ?_, ?_⟩
      · intro r hr
        simp only [Except.ok.injEq] at hr
        rw [← hr, List.dropLast_concat, List.reverse_reverse]
        exact ⟨rfl, by simp⟩
      · intro e; simp [h]
    · rw [if_pos (by rw [hiff]; exact h)]
      refine ⟨fun _ h' => absurd h' h, fun r hr => by simp at hr, ?_⟩
      intro e
      simp [h, eq_comm]

end

/-- C37: the total of an accepted spectrum is preserved, up to the 1 of the power line. -/
theorem C37_total_partial (spect r : List ℚ) (h : convertMcnpSpect (some spect) = .ok r) : r.sum = spect.sum + 1 := by
  obtain ⟨h1, h2⟩ := (C37_reverse_partial spect).2.1 r h
  have hr : r = r.dropLast ++ [1] := by
    cases hn : r with
    | nil => rw [hn] at h2; simp at h2
    | cons a t =>
      rw [← hn]
      have hne : r ≠ [] := by rw [hn]; simp
      rw [List.getLast?_eq_some_getLast hne] at h2
      simp only [Option.some.injEq] at h2
      rw [← h2, List.dropLast_concat_getLast]
  rw [hr, List.sum_append, ← h1, List.sum_reverse]
  simp

/-- C37 is violated: a spectrum ordered by energy whose flux values go down is refused. -/
theorem C37_violated : convertMcnpSpect (some ([3, 1] : List ℚ)) = .error .ValueError := by decide +kernel

example : ([1, 1, 2] : List ℚ) ≠ [] ∧ ([1, 1, 2] : List ℚ).Pairwise (· ≤ ·) := by decide +kernel

/-! ### C38 -/

/-- What the program leaves behind when group `i` is chosen: one text line per group and a power line. -/
def OneGroup (fs' : FS) (output : Str) (n i : Nat) : Prop :=
  ∃ lines, (NeutUtilities.getLines output fs').1 = .ok lines ∧ lines.length = n + 1 ∧
    ∀ j, j < lines.length → lines[j]? = some (if j = i ∨ j = n then p!"1.0" else p!"0.0")

private theorem main_writes (flt : Str → Option (Option ℚ)) (fmt : ℚ → Str) (fs : FS) (output s name : Str)
    (gs : List ℚ) (e : ℚ) (i : Nat) (hf0 : fmt 0 = p!"0.0") (hf1 : fmt 1 = p!"1.0")
    (hw : fs.canWrite output = true) (hg : getGroupStruct (some name) = some gs) (hs : flt s = some (some e))
    (hp : getGroupPos (some gs) (some e) = .ok (i : Int)) (hi : i < gs.length) :
    (main flt fmt output (some name) (some s) fs).1 = .ok () ∧
    OneGroup (main flt fmt output (some name) (some s) fs).2 output gs.length i := by
  obtain ⟨data, hd, hlen, hget, _⟩ := C36_vector gs i hi
  have hmain : main flt fmt output (some name) (some s) fs = NeutUtilities.writeLines output (data.map fmt) fs := by
    unfold main
    rw [hg]
    simp only [hs, hp]
    rw [PyM.bind_ok (m := PyM.lift (Except.ok (i : Int))) (a := (i : Int)) (fs' := fs) rfl,
      PyM.bind_ok (m := PyM.lift (createFluxesData (some gs) (i : Int))) (a := data) (fs' := fs) (by rw [hd]; rfl)]
    cases data with
    | nil => simp at hlen
    | cons x xs =>
      simp only [writeFluxesFile]
      rw [NeutUtilities.writeLines_ok _ hw]
  have hnb : ∀ l ∈ data.map fmt, Spec.NoBoundary l := by
    intro l hl
    rw [List.mem_map] at hl
    obtain ⟨x, hx, rfl⟩ := hl
    obtain ⟨j, hj, rfl⟩ := List.mem_iff_getElem.1 hx
    have := hget j hj
    rw [List.getElem?_eq_getElem hj] at this
    simp only [Option.some.injEq] at this
    rw [this]
    split
    · rw [hf1]; unfold Spec.NoBoundary; decide
    · rw [hf0]; unfold Spec.NoBoundary; decide
  obtain ⟨h1, h2⟩ := C01_round_trip_iff fs output (data.map fmt) hw
  rw [hmain]
  refine ⟨h1, data.map fmt, h2.2 hnb, by simp [hlen], ?_⟩
  intro j hj
  rw [List.length_map] at hj
  rw [List.getElem?_map, hget j hj]
  simp only [Option.map_some, Option.some.injEq]
  split <;> assumption

/-- C38 (part that holds): for the 709 structure the file marks the group of the energy in MeV. Missing: the 162
    structure (`C38_violated`). -/
theorem C38_709_partial (flt : Str → Option (Option ℚ)) (fmt : ℚ → Str) (fs : FS) (output s : Str) (e : ℚ)
    (hf0 : fmt 0 = p!"0.0") (hf1 : fmt 1 = p!"1.0") (hw : fs.canWrite output = true) (hs : flt s = some (some e))
    (h1 : e ≤ 1000) (h2 : 105 / 10 ^ 13 < e) :
    ∃ i, InBin gs709 e i ∧ (main flt fmt output (some p!"709") (some s) fs).1 = .ok () ∧
      OneGroup (main flt fmt output (some p!"709") (some s) fs).2 output 709 i := by
  obtain ⟨_, hg, _, hl, _, hd, _⟩ := C35_tables
  obtain ⟨_, _, ht, hb⟩ := C35_ranges
  obtain ⟨i, hi, hbin, _⟩ := C34_bin gs709 hd e _ _ ht hb h1 h2
  have hlt : i < gs709.length := by
    obtain ⟨a, b, ha, _⟩ := hbin
    exact (List.getElem?_eq_some_iff.1 ha).1
  have := main_writes flt fmt fs output s p!"709" gs709 e i hf0 hf1 hw hg hs hi hlt
  rw [hl] at this
  exact ⟨i, hbin, this⟩

/-- C38 is violated for the 162 structure: it is tabulated in eV, so every energy given in MeV up to 10000 ends up in the
    lowest group, although e.g. 14 MeV is far inside the range of the structure. -/
theorem C38_violated (flt : Str → Option (Option ℚ)) (fmt : ℚ → Str) (fs : FS) (output s : Str)
    (hf0 : fmt 0 = p!"0.0") (hf1 : fmt 1 = p!"1.0") (hw : fs.canWrite output = true) (hs : flt s = some (some 14)) :
    OneGroup (main flt fmt output (some p!"162") (some s) fs).2 output 162 160 ∧
    InBin gs162 (14 * 10 ^ 6) 47 := by
  obtain ⟨hg, _, hl, _, hd, _⟩ := C35_tables
  obtain ⟨ht, hb, _, _⟩ := C35_ranges
  constructor
  · have hp := (C34_outside gs162 hd (by rw [hl]; norm_num) 14 _ _ ht hb).2 (by norm_num)
    rw [hl] at hp
    have := main_writes flt fmt fs output s p!"162" gs162 14 160 hf0 hf1 hw hg hs (by rw [hp]; norm_num)
      (by rw [hl]; norm_num)
    rw [hl] at this
    exact this.2
  · have a : gs162Lits[47]? = some ⟨14000, 3⟩ := by decide +kernel
    have b : gs162Lits[48]? = some ⟨13000, 3⟩ := by decide +kernel
    refine ⟨_, _, by rw [gs162, List.getElem?_map, a]; rfl, by rw [gs162, List.getElem?_map, b]; rfl, ?_, ?_⟩
    · simp only [Sci.val]; norm_num
    · simp only [Sci.val]; norm_num

example : (105 / 10 ^ 13 : ℚ) < 14 ∧ (14 : ℚ) ≤ 1000 ∧ (exFS p!"").canWrite p!"fluxes" = true :=
  ⟨by norm_num, by norm_num, by decide⟩

end Props
