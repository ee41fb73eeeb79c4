/- Property C291 of output_utilities.py: wider lines never need more lines. -/
import Verif.Props.FewestLines

namespace Props
open Py OutputUtilities

/-- State of two runs of the loop over the same tokens: the second, with wider lines, has fewer finished lines, or equally many and a current
    line that is no longer. -/
private def Behind (cont : Str) (L : List Str) (c : Str) (L' : List Str) (c' : Str) : Prop :=
  (L'.length < L.length ∧ cont.length ≤ c.length ∧ endsWith c [' '] = false ∧ strip c ≠ []) ∨
  (L'.length = L.length ∧ c'.length ≤ c.length ∧ endsWith c' [' '] = endsWith c [' '] ∧ (c = c' ∨ strip c ≠ []) ∧
    (L = [] ∨ cont.length ≤ c.length))

private theorem ends_word {a t : Str} (h : strip t ≠ []) : endsWith (a ++ strip t) [' '] = false := by
  rw [← Bool.not_eq_true, endsWith_iff]
  rintro ⟨p, hp⟩
  have h1 : (a ++ strip t).getLast? = some ' ' := by rw [← hp]; simp
  rw [List.getLast?_append_of_ne_nil _ h, List.getLast?_eq_some_getLast h, Option.some.injEq] at h1
  have := strip_last h
  rw [h1] at this
  exact absurd this (by decide)

private theorem strip_word {a t : Str} (h : strip t ≠ []) : strip (a ++ strip t) ≠ [] := by
  intro h0
  rw [strip_eq_nil_iff] at h0
  have := strip_last h
  have hm : (strip t).getLast h ∈ a ++ strip t := List.mem_append_right _ (List.getLast_mem h)
  have := h0 _ hm
  simp_all

private theorem loops {w w' : Int} (hw : w ≤ w') {cont : Str} {tokens : List Str} {L L' M : List Str} {c c' d : Str}
    (hb : Behind cont L c L' c') (h : wrapLoop w cont L c tokens = .ok (M, d)) :
    ∃ M' d', wrapLoop w' cont L' c' tokens = .ok (M', d') ∧ Behind cont M d M' d' := by
  induction tokens generalizing L L' c c' with
  | nil => cases h; exact ⟨_, _, rfl, hb⟩
  | cons t ts ih =>
    rw [wrapLoop] at h ⊢
    by_cases ht : strip t = []
    · rw [if_pos ht] at h ⊢
      exact ih hb h
    · rw [if_neg ht] at h ⊢
      split_ifs at h with h1 h2 h3
      · -- a new line
        rw [if_neg (by omega)]
        split_ifs with g2 g3
        · refine ih ?_ h
          rcases hb with ⟨a1, a2, a3, a4⟩ | ⟨a1, a2, a3, a4, a5⟩
          · left
            exact ⟨by simp; omega, by simp, ends_word ht, strip_word ht⟩
          · right
            exact ⟨by simp; omega, le_rfl, rfl, .inl rfl, .inr (by simp)⟩
        · refine ih ?_ h
          left
          refine ⟨?_, by simp, ends_word ht, strip_word ht⟩
          rcases hb with ⟨a1, _⟩ | ⟨a1, _⟩ <;> simp <;> omega
        · refine ih ?_ h
          left
          refine ⟨?_, by simp, ends_word ht, strip_word ht⟩
          rcases hb with ⟨a1, _⟩ | ⟨a1, _⟩ <;> simp <;> omega
      · -- behind a blank
        rw [if_neg (by omega)]
        rcases hb with ⟨a1, a2, a3, a4⟩ | ⟨a1, a2, a3, a4, a5⟩
        · rw [a3] at h3; cases h3
        · rw [if_neg (by omega), if_pos (by rw [a3]; exact h3)]
          refine ih (.inr ⟨a1, by simp; omega, by rw [ends_word ht, ends_word ht], .inr (strip_word ht), ?_⟩) h
          rcases a5 with a5 | a5
          · exact .inl a5
          · exact .inr (by simp; omega)
      · rw [if_neg (by omega)]
        rcases hb with ⟨a1, a2, a3, a4⟩ | ⟨a1, a2, a3, a4, a5⟩
        · split_ifs with g2 g3
          · refine ih ?_ h
            by_cases hlt : L'.length + 1 < L.length
            · left
              exact ⟨by simpa using hlt, by simp; omega, ends_word ht, strip_word ht⟩
            · right
              refine ⟨by simp; omega, by simp; omega, by rw [ends_word ht, ends_word ht], .inr (strip_word ht), .inr (by simp; omega)⟩
          · exact ih (.inl ⟨a1, by simp; omega, ends_word ht, strip_word ht⟩) h
          · exact ih (.inl ⟨a1, by simp; omega, ends_word ht, strip_word ht⟩) h
        · rw [if_neg (by omega), if_neg (by rw [a3]; exact h3)]
          refine ih (.inr ⟨a1, by simp; omega, by rw [ends_word ht, ends_word ht], .inr (strip_word ht), ?_⟩) h
          rcases a5 with a5 | a5
          · exact .inl a5
          · exact .inr (by simp; omega)

/-- C291: tokens that can be divided into lines can be divided into wider lines, and not into more of them. -/
theorem C291_wider {pre cont : Str} {tokens out : List Str} {w w' : Int} (hw : w ≤ w') (h : wrapTokens pre tokens w cont = .ok out) :
    ∃ out', wrapTokens pre tokens w' cont = .ok out' ∧ out'.length ≤ out.length := by
  unfold wrapTokens at h ⊢
  simp only at h ⊢
  split_ifs at h ⊢ with he
  · exact ⟨out, h, le_rfl⟩
  · cases hL : wrapLoop w (contPrefix cont) [] (pre ++ [' ']) tokens with
    | error e => rw [hL] at h; cases h
    | ok r =>
      obtain ⟨M, d⟩ := r
      obtain ⟨M', d', e', hb⟩ := loops hw (L' := []) (c' := pre ++ [' ']) (.inr ⟨rfl, le_rfl, rfl, .inl rfl, .inl rfl⟩) hL
      rw [hL] at h
      rw [e']
      simp only at h ⊢
      rcases hb with ⟨a1, a2, a3, a4⟩ | ⟨a1, a2, a3, a4, a5⟩
      · rw [if_pos a4] at h
        cases h
        split_ifs
        · exact ⟨_, rfl, by simp; omega⟩
        · exact ⟨_, rfl, by simp; omega⟩
      · split_ifs at h with g
        · cases h
          split_ifs
          · exact ⟨_, rfl, by simp; omega⟩
          · exact ⟨_, rfl, by simp; omega⟩
        · cases h
          have : d = d' := a4.resolve_right g
          subst this
          rw [if_neg g]
          exact ⟨_, rfl, by omega⟩

example : wrapTokens p!"m1" [p!"1001", p!"2", p!"8016", p!"1"] 12 p!"     " = .ok [p!"m1 1001 2", p!"     8016 1"] := by decide
example : wrapTokens p!"m1" [p!"1001", p!"2", p!"8016", p!"1"] 20 p!"     " = .ok [p!"m1 1001 2 8016 1"] := by decide
example : ∃ out', wrapTokens p!"m1" [p!"1001", p!"2", p!"8016", p!"1"] 13 p!"     " = .ok out' ∧ out'.length ≤ 2 :=
  C291_wider (w := 12) (out := [p!"m1 1001 2", p!"     8016 1"]) (by decide) (by decide)

end Props
