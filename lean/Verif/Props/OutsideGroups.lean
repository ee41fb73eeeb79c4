/-
C306: energies outside the group structure.
-/
import Verif.Props.FluxesWriter

set_option linter.unusedSectionVars false

namespace Props
open Py FluxesWriter Spec

section
variable {K : Type} [LinearOrder K]

private theorem mono {gs : List K} (hd : gs.Pairwise (· > ·)) {i j : Nat} {a b : K} (hi : gs[i]? = some a) (hj : gs[j]? = some b) (h : i ≤ j) : b ≤ a := by
  obtain ⟨h1, rfl⟩ := List.getElem?_eq_some_iff.1 hi
  obtain ⟨h2, rfl⟩ := List.getElem?_eq_some_iff.1 hj
  rcases Nat.lt_or_eq_of_le h with h | rfl
  · exact le_of_lt (List.pairwise_iff_getElem.1 hd i j h1 h2 h)
  · exact le_rfl

/-- C306 (part that holds): the group that is found contains the energy exactly if `check_upper_bound` accepts the energy and it lies above
    the lowest boundary; so a caller can notice. Missing: that the program notices (`C306_above_violated`, `C306_below_violated`). -/
theorem C306_check_partial (gs : List K) (hd : gs.Pairwise (· > ·)) (e top bottom : K) (ht : gs.head? = some top) (hb : gs.getLast? = some bottom) :
    (∃ i : Nat, getGroupPos (some gs) (some e) = .ok (i : Int) ∧ InBin gs e i) ↔
      checkUpperBound (some gs) (some e) = .ok true ∧ bottom < e := by
  have hc : checkUpperBound (some gs) (some e) = .ok true ↔ e ≤ top := by
    cases gs with
    | nil => simp at ht
    | cons g gs =>
      simp at ht
      subst ht
      rw [(C34_upper_bound g e gs).1]
      simp
  rw [hc]
  constructor
  · rintro ⟨i, _, a, b, ha, hb', h1, h2⟩
    refine ⟨?_, ?_⟩
    · rw [List.head?_eq_getElem?] at ht
      exact h1.trans (mono hd ht ha (Nat.zero_le _))
    · rw [List.getLast?_eq_getElem?] at hb
      have hl := (List.getElem?_eq_some_iff.1 hb').1
      exact lt_of_le_of_lt (mono hd hb' hb (by omega)) h2
  · rintro ⟨h1, h2⟩
    obtain ⟨i, hi, hin, _⟩ := C34_bin gs hd e top bottom ht hb h1 h2
    exact ⟨i, hi, hin⟩
end

private theorem main_pos (flt : Str → Option (Option ℚ)) (fmt : ℚ → Str) (output : Str) {group : Option Str} {gs : List ℚ} {s s' : Str} {e e' : ℚ}
    (hg : getGroupStruct group = some gs) (hs : flt s = some (some e)) (hs' : flt s' = some (some e'))
    (h : getGroupPos (some gs) (some e) = getGroupPos (some gs) (some e')) :
    main flt fmt output group (some s) = main flt fmt output group (some s') := by
  unfold main
  simp only [hg, hs, hs', h]

private theorem structs {group : Option Str} {gs : List ℚ} (hg : getGroupStruct group = some gs) : gs.Pairwise (· > ·) ∧ 2 ≤ gs.length := by
  obtain ⟨h1, h2, h3, h4, h5, h6, _⟩ := C35_tables
  have hk : group = some p!"709" ∨ group = some p!"162" := by
    by_contra hx
    rw [(C35_names group).2.2 hx] at hg; cases hg
  rcases hk with rfl | rfl
  · rw [h2] at hg; cases hg; exact ⟨h6, by rw [h4]; decide⟩
  · rw [h1] at hg; cases hg; exact ⟨h5, by rw [h3]; decide⟩

private theorem ends {gs : List ℚ} (h : 2 ≤ gs.length) {top bottom : ℚ} (hd : gs.Pairwise (· > ·)) (ht : gs.head? = some top)
    (hb : gs.getLast? = some bottom) : bottom < top := by
  rw [List.head?_eq_getElem?] at ht
  rw [List.getLast?_eq_getElem?] at hb
  obtain ⟨h1, rfl⟩ := List.getElem?_eq_some_iff.1 ht
  obtain ⟨h2, rfl⟩ := List.getElem?_eq_some_iff.1 hb
  exact List.pairwise_iff_getElem.1 hd 0 (gs.length - 1) h1 h2 (by omega)

/-- C306 is violated: for every energy above the group structure the program does the same as for its highest energy. -/
theorem C306_above_violated (flt : Str → Option (Option ℚ)) (fmt : ℚ → Str) (output : Str) {group : Option Str} {gs : List ℚ}
    (hg : getGroupStruct group = some gs) {top : ℚ} (ht : gs.head? = some top) {s s' : Str} {e : ℚ} (hs : flt s = some (some e))
    (hs' : flt s' = some (some top)) (h : top < e) :
    checkUpperBound (some gs) (some e) = .ok false ∧ main flt fmt output group (some s) = main flt fmt output group (some s') := by
  obtain ⟨hd, hl⟩ := structs hg
  obtain ⟨bottom, hb⟩ : ∃ b, gs.getLast? = some b := ⟨_, List.getLast?_eq_some_getLast (by rintro rfl; simp at hl)⟩
  constructor
  · cases gs with
    | nil => simp at ht
    | cons g gs =>
      simp at ht
      subst ht
      rw [(C34_upper_bound g e gs).1]
      simp [h]
  · refine main_pos flt fmt output hg hs hs' ?_
    rw [(C34_outside gs hd hl e top bottom ht hb).1 h]
    obtain ⟨i, hi, hin, hu⟩ := C34_bin gs hd top top bottom ht hb le_rfl (ends hl hd ht hb)
    have h0 : InBin gs top 0 := by
      refine ⟨top, gs[1], by rw [← List.head?_eq_getElem?]; exact ht, List.getElem?_eq_getElem _, le_rfl, ?_⟩
      rw [List.head?_eq_getElem?] at ht
      obtain ⟨h1, rfl⟩ := List.getElem?_eq_some_iff.1 ht
      exact List.pairwise_iff_getElem.1 hd 0 1 h1 (by omega) (by omega)
    rw [hi, ← hu 0 h0]; rfl

/-- C306 is violated: for every energy at or below the lowest boundary the program does the same as for the energies of the lowest group, and
    nothing in the module would notice it. -/
theorem C306_below_violated (flt : Str → Option (Option ℚ)) (fmt : ℚ → Str) (output : Str) {group : Option Str} {gs : List ℚ}
    (hg : getGroupStruct group = some gs) {bottom : ℚ} (hb : gs.getLast? = some bottom) {s s' : Str} {e e' : ℚ} (hs : flt s = some (some e))
    (hs' : flt s' = some (some e')) (h : e ≤ bottom) (h' : InBin gs e' (gs.length - 2)) :
    checkUpperBound (some gs) (some e) = .ok true ∧ main flt fmt output group (some s) = main flt fmt output group (some s') := by
  obtain ⟨hd, hl⟩ := structs hg
  obtain ⟨top, ht⟩ : ∃ t, gs.head? = some t := by
    cases gs with
    | nil => simp at hl
    | cons g gs => exact ⟨g, rfl⟩
  have hbt := ends hl hd ht hb
  constructor
  · cases gs with
    | nil => simp at ht
    | cons g gs =>
      simp at ht
      subst ht
      rw [(C34_upper_bound g e gs).1]
      simp [h.trans hbt.le]
  · refine main_pos flt fmt output hg hs hs' ?_
    rw [(C34_outside gs hd hl e top bottom ht hb).2 h]
    obtain ⟨a, b, ha, hb', h1, h2⟩ := h'
    have htop : e' ≤ top := by
      rw [List.head?_eq_getElem?] at ht
      exact h1.trans (mono hd ht ha (Nat.zero_le _))
    have hbot : bottom < e' := by
      rw [List.getLast?_eq_getElem?] at hb
      exact lt_of_le_of_lt (mono hd hb' hb (by omega)) h2
    obtain ⟨i, hi, _, hu⟩ := C34_bin gs hd e' top bottom ht hb htop hbot
    rw [hi, ← hu _ ⟨a, b, ha, hb', h1, h2⟩]
    congr 1
    omega

/-- 2 GeV with the structure of 709 groups, whose highest boundary is 1 GeV. -/
example (flt : Str → Option (Option ℚ)) (fmt : ℚ → Str) (hs : flt p!"2000" = some (some 2000)) (hs' : flt p!"1000" = some (some 1000)) :
    main flt fmt p!"fluxes" (some p!"709") (some p!"2000") = main flt fmt p!"fluxes" (some p!"709") (some p!"1000") :=
  (C306_above_violated flt fmt _ C35_tables.2.1 C35_ranges.2.2.1 hs hs' (by norm_num)).2

example : (∃ i : Nat, getGroupPos (some [5, 3, 1]) (some 2) = .ok (i : Int) ∧ InBin [5, 3, 1] 2 i) :=
  (C306_check_partial [5, 3, 1] (by decide) 2 5 1 rfl rfl).2 ⟨by decide, by decide⟩

end Props
