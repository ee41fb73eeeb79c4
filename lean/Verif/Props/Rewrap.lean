/-
C317: lines that were wrapped can be wrapped again.
-/
import Verif.Props.OutputUtilities
import Verif.Proofs.NatStr

namespace Props
open Py NeutUtilities OutputUtilities

private theorem strip_single {t w : Str} (h : splitWs t = [w]) : strip t = w := by
  have hw : Spec.IsWords t [w] := h ▸ isWords_splitWs t
  cases hw with
  | word hp hw' hr hrest =>
    rename_i pre rest
    cases hrest with
    | blank hb =>
      have h1 : lstrip (pre ++ w ++ rest) = w ++ rest := by
        obtain ⟨hne, hs⟩ := hw'
        unfold lstrip
        rw [List.append_assoc, List.dropWhile_append_of_pos (by intro c hc; exact hp c hc)]
        cases w with
        | nil => exact absurd rfl hne
        | cons c cs => rw [List.cons_append, List.dropWhile_cons_of_neg (by simp [hs c (by simp)])]
      unfold strip
      rw [h1, rstrip_append_blank hb, rstrip_eq_self_iff]
      intro hne
      exact hw'.2 _ (List.getLast_mem hne)

private theorem loop_words (m : Int) (c : Str) : ∀ (ts : List Str), (∀ t ∈ ts, (splitWs t).length ≤ 1) → ∀ L cur,
    wrapLoop m c L cur (ts.flatMap splitWs) = wrapLoop m c L cur ts := by
  intro ts
  induction ts with
  | nil => intro _ L cur; rfl
  | cons t ts ih =>
    intro h L cur
    have ih := ih (fun u hu => h u (List.mem_cons_of_mem _ hu))
    have h1 := h t (by simp)
    cases hsp : splitWs t with
    | nil =>
      have hb : strip t = [] := strip_eq_nil_iff.2 (splitWs_eq_nil_iff.1 hsp)
      rw [List.flatMap_cons, hsp, List.nil_append, ih]
      simp [wrapLoop, hb]
    | cons w ws =>
      rw [hsp] at h1
      have hn : ws = [] := by cases ws with | nil => rfl | cons _ _ => simp at h1
      subst hn
      have hs := strip_single hsp
      have hsw : strip w = w := by
        rw [← hs]
        apply strip_single
        rw [splitWs_strip, hsp, hs]
      rw [List.flatMap_cons, hsp, List.singleton_append]
      simp only [wrapLoop, hs, hsw, ih]

/-- C317: tokens of one word each can be wrapped, the words of the lines taken and wrapped again, to the same or any other width and with the same or
    any other continuation; the result is what wrapping the tokens to this width gives. So text that was wrapped already does not matter. -/
theorem C317_again {pre cont cont' : Str} {tokens out : List Str} {m m' : Int} (hb : Spec.Blank cont) (h : wrapTokens pre tokens m cont = .ok out)
    (f : Str → List Str) (hf : ∀ s, Spec.IsWords s (f s)) (hpre : f pre = [pre]) (ht : ∀ t ∈ tokens, (f t).length ≤ 1) :
    ∃ ws, out.flatMap f = pre :: ws ∧ wrapTokens pre ws m' cont' = wrapTokens pre tokens m' cont' := by
  have h12 := C12_words_preserved pre cont tokens m out hb h f hf
  have hf' : f = splitWs := by funext s; exact (splitWs_of_isWords (hf s)).symm
  subst hf'
  refine ⟨tokens.flatMap splitWs, by rw [h12, hpre]; rfl, ?_⟩
  have hl := loop_words m' (contPrefix cont') tokens ht [] (pre ++ [' '])
  have hs : strip (pre ++ [' ']) ≠ [] := by
    intro h0
    have := splitWs_eq_nil_iff.2 (fun c hc => strip_eq_nil_iff.1 h0 c (List.mem_append_left _ hc))
    rw [hpre] at this; cases this
  unfold wrapTokens
  by_cases he : tokens = []
  · subst he; rfl
  · rw [if_neg (show ¬ tokens.isEmpty = true by simpa using he)]
    by_cases he' : tokens.flatMap splitWs = []
    · rw [he'] at hl ⊢
      rw [← hl]
      simp [wrapLoop, hs]
    · rw [if_neg (show ¬ (tokens.flatMap splitWs).isEmpty = true by simpa using he'), hl]

/-- In particular the lines do not change if they are wrapped again as they were. -/
theorem C317_same {pre cont : Str} {tokens out : List Str} {m : Int} (hb : Spec.Blank cont) (h : wrapTokens pre tokens m cont = .ok out)
    (f : Str → List Str) (hf : ∀ s, Spec.IsWords s (f s)) (hpre : f pre = [pre]) (ht : ∀ t ∈ tokens, (f t).length ≤ 1) :
    ∃ ws, out.flatMap f = pre :: ws ∧ wrapTokens pre ws m cont = .ok out := by
  obtain ⟨ws, h1, h2⟩ := C317_again (m' := m) (cont' := cont) hb h f hf hpre ht
  exact ⟨ws, h1, h2.trans h⟩

/-- C317 needs tokens of one word: a token of two words stays on its line and is taken apart when its words are wrapped again. -/
theorem C317_two_words : wrapTokens p!"m1" [p!"1", p!"2 3"] 7 = .ok [p!"m1 1", p!"     2 3"] ∧
    wrapTokens p!"m1" [p!"1", p!"2", p!"3"] 7 = .ok [p!"m1 1 2", p!"     3"] := by
  constructor <;> decide +kernel

example : wrapTokens p!"m1" [p!"1001", p!" 0.5 ", p!"", p!"8016", p!"0.25"] 12 = .ok [p!"m1 1001 0.5", p!"     8016", p!"     0.25"] ∧
    wrapTokens p!"m1" [p!"1001", p!"0.5", p!"8016", p!"0.25"] 12 = .ok [p!"m1 1001 0.5", p!"     8016", p!"     0.25"] := by
  constructor <;> decide +kernel

end Props
