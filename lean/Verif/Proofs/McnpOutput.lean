/- Helper lemmas for the properties of mcnp_output_reader.py. -/
import Verif.Model.McnpOutput
import Verif.Proofs.McnpInput
import Verif.Proofs.MapM
import Verif.Proofs.Except

namespace McnpOutput
open Py NeutUtilities

theorem take_eq_prefix {k : Nat} {a l : Str} (h : a.length = k) : l.take k = a ↔ a <+: l := by
  subst h
  constructor
  · intro h; rw [← h]; exact List.take_prefix _ _
  · intro h; exact List.prefix_iff_eq_take.1 h |>.symm

theorem findLine_prefix {text : Str} {lines : List Str} {i k : Nat} (hk : text.length = k) :
    findLine text lines k = .ok i ↔ Spec.IsLeast (fun j => ∃ l, lines[j]? = some l ∧ text <+: l) i := by
  rw [findLine_eq, orErr_ok_iff, findIdx?_isLeast]
  simp only [decide_eq_true_eq, take_eq_prefix hk]

theorem findLine_none {text : Str} {lines : List Str} {e : Err} {k : Nat} (hk : text.length = k) :
    findLine text lines k = .error e ↔ e = .ValueError ∧ ∀ l ∈ lines, ¬ text <+: l := by
  rw [findLine_eq, orErr_err_iff, List.findIdx?_eq_none_iff]
  simp only [decide_eq_false_iff_not, take_eq_prefix hk]
  tauto

theorem second_word {l : Str} {w : Str} : (stringCleanAndSplit l)[1]? = some w ↔ ∃ v ws, Spec.IsWords l (v :: w :: ws) := by
  unfold stringCleanAndSplit
  have h1 : ∀ L : List Str, L[1]? = (L.drop 1).head? := by intro L; simp
  rw [h1, splitOn_stringCleaner_drop _ _ (by decide)]
  simp only [isWords_iff]
  rcases splitWs l with _ | ⟨v, _ | ⟨w', ws⟩⟩
  · simp
  · simp
  · simp only [List.drop_succ_cons, List.drop_zero, List.head?_cons, Option.some.injEq, List.cons.injEq]
    constructor
    · rintro rfl; exact ⟨v, ws, rfl, rfl, rfl⟩
    · rintro ⟨_, _, _, h, _⟩; exact h

theorem last_two {α : Type} (l : List α) (h : 2 ≤ l.length) : ∃ a x y, l = a ++ [x, y] := by
  have h1 : l ≠ [] := by rintro rfl; simp at h
  have h2 : l.dropLast ≠ [] := by
    intro h0
    have := congrArg List.length h0
    simp at this; omega
  refine ⟨l.dropLast.dropLast, l.dropLast.getLast h2, l.getLast h1, ?_⟩
  have e1 := List.dropLast_append_getLast h1
  have e2 := List.dropLast_append_getLast h2
  calc l = l.dropLast ++ [l.getLast h1] := e1.symm
    _ = (l.dropLast.dropLast ++ [l.dropLast.getLast h2]) ++ [l.getLast h1] := by rw [e2]
    _ = _ := by simp

theorem getI_snd_last {α : Type} (a : List α) (x y : α) : getI (a ++ [x, y]) (-2) = some x := by
  unfold getI
  rw [if_neg (by decide), if_pos (by simp)]
  simp

/-- A non-blank character of a text lies in one of its words; so does a text without white space. -/
theorem infix_word {t : Str} (x y : Str) (hne : t ≠ []) (ht : ∀ c ∈ t, isSpace c = false) :
    ∃ v ∈ splitWs (x ++ t ++ y), t <:+: v := by
  obtain ⟨a, u, rfl, hu, ha⟩ : ∃ a u, x = a ++ u ∧ (∀ c ∈ u, isSpace c = false) ∧ (a = [] ∨ ∃ a' c, a = a' ++ [c] ∧ isSpace c = true) := by
    refine ⟨x.rdropWhile (fun c => !isSpace c), x.rtakeWhile (fun c => !isSpace c), List.rdropWhile_append_rtakeWhile.symm, ?_, ?_⟩
    · intro c hc
      simpa using List.mem_rtakeWhile_imp hc
    · by_cases h0 : x.rdropWhile (fun c => !isSpace c) = []
      · exact Or.inl h0
      · refine Or.inr ⟨_, _, (List.dropLast_append_getLast h0).symm, ?_⟩
        simpa using List.rdropWhile_last_not _ _ h0
  obtain ⟨v, b, rfl, hv, hb⟩ : ∃ v b, y = v ++ b ∧ (∀ c ∈ v, isSpace c = false) ∧ ∀ c ∈ b.head?, isSpace c = true := by
    refine ⟨y.takeWhile (fun c => !isSpace c), y.dropWhile (fun c => !isSpace c), List.takeWhile_append_dropWhile.symm, ?_, ?_⟩
    · intro c hc
      simpa using List.mem_takeWhile_imp hc
    · intro c hc
      have hne : y.dropWhile (fun c => !isSpace c) ≠ [] := by rintro h0; rw [h0] at hc; simp at hc
      have := List.head_dropWhile_not (fun c => !isSpace c) hne
      rw [List.head?_eq_some_head hne] at hc
      simp only [Option.mem_def, Option.some.injEq] at hc
      rw [hc] at this
      simpa using this
  have hw : splitWs ((u ++ t ++ v) ++ b) = (u ++ t ++ v) :: splitWs b := by
    apply McnpInput.splitWs_word_append (by simp [hne]) _ hb
    intro c hc
    simp only [List.mem_append] at hc
    rcases hc with (hc | hc) | hc
    · exact hu c hc
    · exact ht c hc
    · exact hv c hc
  refine ⟨u ++ t ++ v, ?_, u, v, rfl⟩
  rcases ha with rfl | ⟨a', c, rfl, hc⟩
  · have : [] ++ u ++ t ++ (v ++ b) = (u ++ t ++ v) ++ b := by simp
    rw [this, hw]; simp
  · have : a' ++ [c] ++ u ++ t ++ (v ++ b) = a' ++ c :: ((u ++ t ++ v) ++ b) := by simp
    rw [this, splitWs_append_space hc, hw]; simp

end McnpOutput
