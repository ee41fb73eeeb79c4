/- Helper lemmas for fispact_fluxes_writer.py. -/
import Verif.Model.FluxesWriter
import Verif.Spec.Groups
import Verif.Proofs.NeutUtilities
import Mathlib.Order.Basic
import Mathlib.Data.List.Chain
import Mathlib.Tactic.NormNum
import Mathlib.Tactic.Positivity
import Mathlib.Tactic.FieldSimp
import Mathlib.Algebra.Order.Field.Basic

namespace FluxesWriter
open Py Spec
variable {K : Type} [LinearOrder K]

theorem pairwise_getElem {gs : List K} (h : gs.Pairwise (· > ·)) {i j : Nat} {a b : K} (hi : gs[i]? = some a)
    (hj : gs[j]? = some b) (hij : i < j) : b < a := by
  rw [List.getElem?_eq_some_iff] at hi hj
  obtain ⟨hi', rfl⟩ := hi
  obtain ⟨hj', rfl⟩ := hj
  exact List.pairwise_iff_getElem.1 h i j hi' hj' hij

theorem inBin_unique {gs : List K} (h : gs.Pairwise (· > ·)) {e e' : K} {i j : Nat} (hi : InBin gs e i)
    (hj : InBin gs e' j) (hee : e ≤ e') : j ≤ i := by
  obtain ⟨a, b, ha, hb, h1, h2⟩ := hi
  obtain ⟨c, d, hc, hd, h3, h4⟩ := hj
  by_contra hn
  have : i + 1 ≤ j := by omega
  rcases Nat.eq_or_lt_of_le this with rfl | hlt
  · rw [hb] at hc
    simp at hc
    subst hc
    exact absurd (lt_of_lt_of_le h2 (le_trans hee h3)) (lt_irrefl _)
  · have := pairwise_getElem h hb hc hlt
    exact absurd (lt_trans (lt_of_lt_of_le h2 (le_trans hee h3)) this) (lt_irrefl _)

theorem exists_inBin (gs : List K) (e : K) : ∀ g, e ≤ g → (g :: gs).getLast (by simp) < e →
    ∃ i, InBin (g :: gs) e i := by
  induction gs with
  | nil => intro g h1 h2; exact absurd (lt_of_le_of_lt h1 h2) (lt_irrefl _)
  | cons x xs ih =>
    intro g h1 h2
    by_cases hx : x < e
    · exact ⟨0, g, x, rfl, rfl, h1, hx⟩
    · obtain ⟨i, a, b, ha, hb, h3, h4⟩ := ih x (not_lt.1 hx) (by rw [List.getLast_cons (by simp)] at h2; exact h2)
      exact ⟨i + 1, a, b, by simpa using ha, by simpa using hb, h3, h4⟩

/-- The search in the model finds a bin of the energy. -/
theorem find_bin {g : K} {gs : List K} {e : K} (h : ∃ i, InBin (g :: gs) e i) :
    ∃ i, ((g :: gs).zip gs).findIdx? (fun p => decide (p.1 ≥ e) && decide (e > p.2)) = some i ∧ InBin (g :: gs) e i := by
  cases hf : ((g :: gs).zip gs).findIdx? (fun p => decide (p.1 ≥ e) && decide (e > p.2)) with
  | none =>
    exfalso
    rw [List.findIdx?_eq_none_iff] at hf
    obtain ⟨i, a, b, ha, hb, h1, h2⟩ := h
    have : ((g :: gs).zip gs)[i]? = some (a, b) := by
      rw [List.getElem?_zip_eq_some]; exact ⟨ha, by simpa using hb⟩
    have := hf _ (List.mem_of_getElem? this)
    simp at this
    exact absurd h2 (not_lt.2 (this h1))
  | some i =>
    refine ⟨i, rfl, ?_⟩
    rw [List.findIdx?_eq_some_iff_getElem] at hf
    obtain ⟨hlt, hp, _⟩ := hf
    have he : ((g :: gs).zip gs)[i]? = some ((g :: gs).zip gs)[i] := List.getElem?_eq_getElem hlt
    rw [List.getElem?_zip_eq_some] at he
    rw [Bool.and_eq_true, decide_eq_true_eq, decide_eq_true_eq] at hp
    exact ⟨_, _, he.1, by simp, hp.1, hp.2⟩

theorem getGroupPos_in_range {g : K} {gs : List K} {e : K} (h1 : e ≤ g) (h2 : (g :: gs).getLast (by simp) < e) :
    ∃ i : Nat, getGroupPos (some (g :: gs)) (some e) = .ok (i : Int) ∧ InBin (g :: gs) e i := by
  obtain ⟨i, hi, hb⟩ := find_bin (exists_inBin gs e g h1 h2)
  refine ⟨i, ?_, hb⟩
  simp only [getGroupPos]
  rw [if_neg (not_lt.2 h1), if_neg (not_le.2 h2), hi]

/-- The literals as multiples of 1e-13. -/
def Sci.scaled (s : Sci) : Nat := s.mant * 10 ^ (s.exp + 13).toNat

theorem Sci.val_eq (s : Sci) (h : -13 ≤ s.exp) : s.val = (s.scaled : ℚ) / 10 ^ 13 := by
  unfold Sci.val Sci.scaled
  rw [eq_div_iff (by norm_num), mul_assoc]
  push_cast
  congr 1
  rw [← zpow_natCast (10 : ℚ) 13, ← zpow_add₀ (by norm_num), ← zpow_natCast]
  congr 1
  omega

theorem descending_of_scaled (l : List Sci) (h1 : l.all (fun s => decide (-13 ≤ s.exp) && decide (0 < s.scaled)) = true)
    (h2 : (l.map Sci.scaled).IsChain (· > ·)) :
    (l.map Sci.val).Pairwise (· > ·) ∧ ∀ x ∈ l.map Sci.val, 0 < x := by
  rw [List.all_eq_true] at h1
  have hm : l.map Sci.val = (l.map Sci.scaled).map (fun n : Nat => (n : ℚ) / 10 ^ 13) := by
    rw [List.map_map]
    apply List.map_congr_left
    intro s hs
    have := h1 s hs
    simp only [Bool.and_eq_true, decide_eq_true_eq] at this
    exact Sci.val_eq s this.1
  constructor
  · rw [hm, List.pairwise_map]
    rw [List.isChain_iff_pairwise] at h2
    refine h2.imp ?_
    intro a b hab
    have : (b : ℚ) < a := by exact_mod_cast hab
    exact div_lt_div_of_pos_right this (by norm_num)
  · rw [hm]
    intro x hx
    simp only [List.mem_map] at hx
    obtain ⟨n, ⟨s, hs, rfl⟩, rfl⟩ := hx
    have := h1 s hs
    simp only [Bool.and_eq_true, decide_eq_true_eq] at this
    have h : (0 : ℚ) < s.scaled := by exact_mod_cast this.2
    positivity

end FluxesWriter
