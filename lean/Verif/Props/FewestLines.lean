/-
C285: wrap_tokens uses as few lines as possible.
-/
import Verif.Props.General

set_option linter.unusedSimpArgs false

namespace Props
open Py OutputUtilities

/-- Spec: the text of the first line with these words: the prefix and each word behind a blank. -/
def firstText (pre : Str) (ws : List Str) : Str := pre ++ ws.flatMap (fun w => ' ' :: w)

/-- Spec: the text of a continuation line with these words: the continuation prefix and the words with blanks between them. -/
def nextText (cont : Str) (ws : List Str) : Str := contText cont ++ List.intercalate [' '] ws

/-- Spec: the words of the tokens divided into lines, every line within the width. -/
structure FitsInto (pre cont : Str) (maxLen : Int) (tokens : List Str) (first : List Str) (rest : List (List Str)) : Prop where
  words : first ++ rest.flatten = (tokens.map strip).filter (fun w => decide (w ≠ []))
  filled : ∀ g ∈ rest, g ≠ []
  firstFits : ((firstText pre first).length : Int) ≤ maxLen
  restFit : ∀ g ∈ rest, ((nextText cont g).length : Int) ≤ maxLen

/-- The loop in numbers: finished lines and length of the current one, which does not end in a blank. -/
private def run (maxLen : Int) (cl : Nat) : Nat → Nat → List Nat → Nat × Nat
  | n, c, [] => (n, c)
  | n, c, w :: ws => if (c : Int) + w + 1 > maxLen then run maxLen cl (n + 1) (cl + w) ws else run maxLen cl n (c + 1 + w) ws

private theorem run_append (maxLen : Int) (cl n c : Nat) (xs ys : List Nat) :
    run maxLen cl n c (xs ++ ys) = run maxLen cl (run maxLen cl n c xs).1 (run maxLen cl n c xs).2 ys := by
  induction xs generalizing n c with
  | nil => rfl
  | cons x xs ih =>
    simp only [List.cons_append, run]
    split_ifs <;> exact ih _ _

private theorem no_blank_end {a t : Str} (h : strip t ≠ []) : endsWith (a ++ strip t) [' '] = false := by
  rw [← Bool.not_eq_true, endsWith_iff]
  rintro ⟨p, hp⟩
  have h1 : (a ++ strip t).getLast? = some ' ' := by rw [← hp]; simp
  rw [List.getLast?_append_of_ne_nil _ h, List.getLast?_eq_some_getLast h, Option.some.injEq] at h1
  have := strip_last h
  rw [h1] at this
  exact absurd this (by decide)

private theorem loop_run {maxLen : Int} {cont : Str} {tokens : List Str} {lines L : List Str} {current C : Str} (hc : endsWith current [' '] = false)
    (h : wrapLoop maxLen cont lines current tokens = .ok (L, C)) :
    (L.length, C.length) = run maxLen cont.length lines.length current.length
      (((tokens.map strip).filter (fun w => decide (w ≠ []))).map List.length) := by
  induction tokens generalizing lines current with
  | nil => cases h; rfl
  | cons t ts ih =>
    rw [wrapLoop] at h
    by_cases ht : strip t = []
    · rw [if_pos ht] at h
      rw [ih hc h]
      simp [ht]
    · rw [if_neg ht] at h
      simp only [List.map_cons, List.filter_cons, ne_eq, ht, not_false_eq_true, decide_true, if_true, run]
      split_ifs at h with h1 h2 h3
      · rw [if_pos h2, ih (no_blank_end ht) h]
        simp
      · rw [hc] at h3; cases h3
      · rw [if_neg h2, ih (by rw [List.append_assoc]; exact no_blank_end (a := current ++ [' ']) ht |> (by simpa using ·)) h]
        simp only [List.length_append, List.length_singleton]

/-- Words that fit behind `c'` in one line leave the greedy loop no further than that line. -/
private theorem run_line {maxLen : Int} {cl n c n' c' : Nat} (ws : List Nat) (h : n < n' ∧ cl ≤ c' ∨ n = n' ∧ c ≤ c')
    (hf : ((c' + (ws.map (· + 1)).sum : Nat) : Int) ≤ maxLen) :
    let r := run maxLen cl n c ws
    r.1 < n' ∨ r.1 = n' ∧ r.2 ≤ c' + (ws.map (· + 1)).sum := by
  induction ws generalizing n c c' with
  | nil =>
    simp only [run, List.map_nil, List.sum_nil, Nat.add_zero]
    omega
  | cons w ws ih =>
    simp only [List.map_cons, List.sum_cons] at hf ⊢
    have hsum : c' + (w + 1 + (ws.map (· + 1)).sum) = (c' + (w + 1)) + (ws.map (· + 1)).sum := by omega
    rw [hsum] at hf ⊢
    simp only [run]
    split_ifs with hg
    · apply ih _ hf
      rcases h with h | h
      · omega
      · exfalso
        have : ((c' + (w + 1) : Nat) : Int) ≤ maxLen := le_trans (by exact_mod_cast Nat.le_add_right _ _) hf
        omega
    · apply ih _ hf
      omega

private theorem run_rest {maxLen : Int} {cl : Nat} (rest : List (List Nat)) (hne : ∀ g ∈ rest, g ≠ [])
    (hf : ∀ g ∈ rest, ((cl + (g.map (· + 1)).sum : Nat) : Int) ≤ maxLen + 1) {n c n' : Nat} (h : n ≤ n') :
    (run maxLen cl n c rest.flatten).1 ≤ n' + rest.length := by
  induction rest generalizing n c n' with
  | nil => simpa [run] using h
  | cons g rest ih =>
    rw [List.flatten_cons, run_append, List.length_cons]
    have : (run maxLen cl n c g).1 ≤ n' + 1 := by
      have hg := hne g (by simp)
      have hfg := hf g (by simp)
      cases g with
      | nil => exact absurd rfl hg
      | cons w ws =>
        simp only [List.map_cons, List.sum_cons] at hfg
        have key : ∀ m d, (m < n' + 1 ∧ cl ≤ cl + w ∨ m = n' + 1 ∧ d ≤ cl + w) → (run maxLen cl m d ws).1 ≤ n' + 1 := by
          intro m d hmd
          have := run_line (maxLen := maxLen) ws hmd (by push_cast at hfg ⊢; omega)
          simp only at this
          omega
        simp only [run]
        split_ifs
        · exact key _ _ (by omega)
        · exact key _ _ (by omega)
    have := ih (fun g hg => hne g (by simp [hg])) (fun g hg => hf g (by simp [hg])) this (c := (run maxLen cl n c g).2)
    omega

private theorem contPrefix_text (cont : Str) : contPrefix cont = contText cont := by
  unfold contPrefix contText
  have : (!cont.isEmpty && !endsWith cont [' ']) = true ↔ (cont ≠ [] ∧ cont.getLast? ≠ some ' ') := by
    rw [Bool.and_eq_true, Bool.not_eq_true', Bool.not_eq_true', ← Bool.not_eq_true (endsWith _ _), endsWith_iff]
    have : [' '] <:+ cont ↔ cont.getLast? = some ' ' := by
      constructor
      · rintro ⟨p, rfl⟩; simp
      · intro h
        obtain ⟨l, rfl⟩ := List.getLast?_eq_some_iff.1 h
        exact ⟨l, rfl⟩
    rw [this]
    simp
  by_cases h : cont ≠ [] ∧ cont.getLast? ≠ some ' '
  · rw [if_pos (this.2 h), if_pos h]
  · rw [if_neg (fun h' => h (this.1 h')), if_neg h]

private theorem first_length (pre : Str) (ws : List Str) : (firstText pre ws).length = pre.length + ((ws.map List.length).map (· + 1)).sum := by
  unfold firstText
  rw [List.length_append, List.length_flatMap]
  simp [Function.comp_def]

private theorem next_length (cont : Str) {ws : List Str} (h : ws ≠ []) :
    (nextText cont ws).length + 1 = (contText cont).length + ((ws.map List.length).map (· + 1)).sum := by
  unfold nextText
  rw [List.length_append]
  have : ∀ ws : List Str, ws ≠ [] → (List.intercalate [' '] ws).length + 1 = ((ws.map List.length).map (· + 1)).sum := by
    intro ws
    induction ws with
    | nil => intro h; exact absurd rfl h
    | cons w ws ih =>
      intro _
      cases ws with
      | nil => simp [List.intercalate, List.intersperse]
      | cons v ws =>
        have := ih (by simp)
        have e : List.intercalate [' '] (w :: v :: ws) = w ++ ' ' :: List.intercalate [' '] (v :: ws) := by
          simp [List.intercalate, List.intersperse]
        rw [e]
        simp only [List.length_append, List.length_cons, List.map_cons, List.sum_cons] at this ⊢
        omega
  have := this ws h
  omega

/-- C285 (part that holds): no division of the words into lines within the width has fewer lines than the one returned, if it does not fill the first
    line to the last column with a single word. Missing: such divisions (`C285_exact_violated`). -/
theorem C285_fewest_partial {pre cont : Str} {tokens out : List Str} {maxLen : Int} (h : wrapTokens pre tokens maxLen cont = .ok out)
    {first : List Str} {rest : List (List Str)} (hl : FitsInto pre cont maxLen tokens first rest)
    (hx : ∀ w, first = [w] → ((firstText pre first).length : Int) < maxLen) : out.length ≤ 1 + rest.length := by
  have hrest : ∀ g ∈ rest.map (fun g => g.map List.length), (((contText cont).length + (g.map (· + 1)).sum : Nat) : Int) ≤ maxLen + 1 := by
    intro g hg
    obtain ⟨ws, hws, rfl⟩ := List.mem_map.1 hg
    rw [← next_length cont (hl.filled ws hws)]
    have := hl.restFit ws hws
    push_cast
    omega
  have hne : ∀ g ∈ rest.map (fun g => g.map List.length), g ≠ [] := by
    intro g hg
    obtain ⟨ws, hws, rfl⟩ := List.mem_map.1 hg
    simpa using hl.filled ws hws
  have hflat : (rest.map (fun g => g.map List.length)).flatten = rest.flatten.map List.length := by
    rw [List.map_flatten]
  unfold wrapTokens at h
  simp only at h
  split_ifs at h with he
  · cases h
    simp
  · cases hL : wrapLoop maxLen (contPrefix cont) [] (pre ++ [' ']) tokens with
    | error e => rw [hL] at h; cases h
    | ok r =>
      obtain ⟨L, C⟩ := r
      rw [hL] at h
      have hout : out.length ≤ L.length + 1 := by
        simp only at h
        split_ifs at h <;> cases h <;> simp
      suffices hs : L.length ≤ rest.length by omega
      rw [contPrefix_text] at hL
      have hw := hl.words
      clear h hout he
      -- the first word
      induction tokens with
      | nil =>
        cases hL
        simp
      | cons t ts ih =>
        rw [wrapLoop] at hL
        by_cases ht : strip t = []
        · rw [if_pos ht] at hL
          have hw' : first ++ rest.flatten = (ts.map strip).filter (fun w => decide (w ≠ [])) := by
            rw [hw]; simp [ht]
          exact ih ⟨hw', hl.filled, hl.firstFits, hl.restFit⟩ hL hw'
        · rw [if_neg ht] at hL
          have hwt : ((t :: ts).map strip).filter (fun w => decide (w ≠ [])) = strip t :: (ts.map strip).filter (fun w => decide (w ≠ [])) := by
            simp [ht]
          rw [hwt] at hw
          split_ifs at hL with h1 h2 h3
          · -- a new line at once
            have hrun := loop_run (no_blank_end ht) hL
            have hL1 : L.length = (run maxLen (contText cont).length 1 ((contText cont).length + (strip t).length)
                (((ts.map strip).filter (fun w => decide (w ≠ []))).map List.length)).1 := by
              rw [← show (L.length, C.length).1 = L.length from rfl, hrun]
              simp
            cases hf : first with
            | cons w ws =>
              exfalso
              rw [hf, List.cons_append, List.cons.injEq] at hw
              have hff := hl.firstFits
              rw [hf, first_length] at hff
              have hxx := hx w
              rw [hf] at hxx
              rw [first_length] at hxx
              simp only [List.map_cons, List.sum_cons, hw.1] at hff hxx
              simp only [List.length_append, List.length_singleton] at h2
              cases ws with
              | nil =>
                have := hxx rfl
                simp only [List.map_nil, List.sum_nil] at this
                push_cast at this h2
                omega
              | cons v ws =>
                simp only [List.map_cons, List.sum_cons] at hff
                have hv : 0 < v.length := by
                  have : v ∈ (ts.map strip).filter (fun w => decide (w ≠ [])) := by rw [← hw.2]; simp
                  have := (List.mem_filter.1 this).2
                  exact List.length_pos_iff.2 (of_decide_eq_true this)
                have hle : ((pre.length + ((strip t).length + 1) + (v.length + 1) : Nat) : Int) ≤ maxLen :=
                  le_trans (by exact_mod_cast (by omega)) hff
                push_cast at hle h2
                omega
            | nil =>
              rw [hf, List.nil_append] at hw
              cases rest with
              | nil => simp at hw
              | cons g rest =>
                have hg := hl.filled g (by simp)
                cases g with
                | nil => exact absurd rfl hg
                | cons w ws =>
                  rw [List.flatten_cons, List.cons_append, List.cons.injEq] at hw
                  rw [hL1, ← hw.2, List.map_append, run_append]
                  have hfg := hrest ((w :: ws).map List.length) (by simp)
                  simp only [List.map_cons, List.sum_cons, hw.1] at hfg
                  have hline := run_line (maxLen := maxLen) (cl := (contText cont).length) (n := 1) (c := (contText cont).length + (strip t).length)
                    (n' := 1) (c' := (contText cont).length + (strip t).length) (ws.map List.length) (.inr ⟨rfl, le_rfl⟩)
                    (by push_cast at hfg ⊢; omega)
                  simp only at hline
                  have hr := run_rest (maxLen := maxLen) (cl := (contText cont).length) (rest.map (fun g => g.map List.length))
                    (fun g hg => hne g (by simp only [List.map_cons, List.mem_cons]; exact .inr hg))
                    (fun g hg => hrest g (by simp only [List.map_cons, List.mem_cons]; exact .inr hg))
                    (n' := 1) (show (run maxLen (contText cont).length 1 ((contText cont).length + (strip t).length) (ws.map List.length)).1 ≤ 1 by omega)
                    (c := (run maxLen (contText cont).length 1 ((contText cont).length + (strip t).length) (ws.map List.length)).2)
                  rw [← List.map_flatten] at hr
                  simp only [List.length_map, List.length_cons] at hr ⊢
                  omega
          · -- the word behind the prefix
            have hrun := loop_run (no_blank_end ht) hL
            have hL1 : L.length = (run maxLen (contText cont).length 0 (pre.length + 1 + (strip t).length)
                (((ts.map strip).filter (fun w => decide (w ≠ []))).map List.length)).1 := by
              rw [← show (L.length, C.length).1 = L.length from rfl, hrun]
              simp only [List.length_append, List.length_singleton, List.length_nil]
            cases hf : first with
            | cons w ws =>
              rw [hf, List.cons_append, List.cons.injEq] at hw
              rw [hL1, ← hw.2, List.map_append, run_append]
              have hff := hl.firstFits
              rw [hf, first_length] at hff
              simp only [List.map_cons, List.sum_cons, hw.1] at hff
              have hline := run_line (maxLen := maxLen) (cl := (contText cont).length) (n := 0) (c := pre.length + 1 + (strip t).length)
                (n' := 0) (c' := pre.length + 1 + (strip t).length) (ws.map List.length) (.inr ⟨rfl, le_rfl⟩)
                (by push_cast at hff ⊢; omega)
              simp only at hline
              have hr := run_rest (maxLen := maxLen) (cl := (contText cont).length) (rest.map (fun g => g.map List.length)) hne hrest
                (n' := 0) (show (run maxLen (contText cont).length 0 (pre.length + 1 + (strip t).length) (ws.map List.length)).1 ≤ 0 by omega)
                (c := (run maxLen (contText cont).length 0 (pre.length + 1 + (strip t).length) (ws.map List.length)).2)
              rw [← List.map_flatten] at hr
              simp only [List.length_map] at hr
              omega
            | nil =>
              rw [hf, List.nil_append] at hw
              cases rest with
              | nil => simp at hw
              | cons g rest =>
                have hg := hl.filled g (by simp)
                cases g with
                | nil => exact absurd rfl hg
                | cons w ws =>
                  rw [List.flatten_cons, List.cons_append, List.cons.injEq] at hw
                  rw [hL1, ← hw.2, List.map_append, run_append]
                  have hfg := hrest ((w :: ws).map List.length) (by simp)
                  simp only [List.map_cons, List.sum_cons, hw.1] at hfg
                  have hline := run_line (maxLen := maxLen) (cl := (contText cont).length) (n := 0) (c := pre.length + 1 + (strip t).length)
                    (n' := 1) (c' := (contText cont).length + (strip t).length) (ws.map List.length) (.inl ⟨by omega, by omega⟩)
                    (by push_cast at hfg ⊢; omega)
                  simp only at hline
                  have hr := run_rest (maxLen := maxLen) (cl := (contText cont).length) (rest.map (fun g => g.map List.length))
                    (fun g hg => hne g (by simp only [List.map_cons, List.mem_cons]; exact .inr hg))
                    (fun g hg => hrest g (by simp only [List.map_cons, List.mem_cons]; exact .inr hg))
                    (n' := 1) (show (run maxLen (contText cont).length 0 (pre.length + 1 + (strip t).length) (ws.map List.length)).1 ≤ 1 by omega)
                    (c := (run maxLen (contText cont).length 0 (pre.length + 1 + (strip t).length) (ws.map List.length)).2)
                  rw [← List.map_flatten] at hr
                  simp only [List.length_map, List.length_cons] at hr ⊢
                  omega
          · exact absurd (by rw [endsWith_iff]; exact ⟨pre, rfl⟩) h3

/-- C285 is violated: a single word that fills the first line to the last column is put on a second line. -/
theorem C285_exact_violated (pre cont t : Str) (ht : strip t = t) (hne : t ≠ []) :
    FitsInto pre cont ((firstText pre [t]).length : Int) [t] [t] [] ∧
    wrapTokens pre [t] ((firstText pre [t]).length : Int) cont = .ok [rstrip pre, contText cont ++ t] := by
  have hlen : (firstText pre [t]).length = pre.length + 1 + t.length := by
    rw [first_length]; simp; omega
  refine ⟨⟨by simp [ht, hne], by simp, le_rfl, by simp⟩, ?_⟩
  unfold wrapTokens
  simp only [List.isEmpty_cons, Bool.false_eq_true, if_false, wrapLoop, ht, hne, contPrefix_text]
  rw [hlen, if_neg (by push_cast; omega), if_pos (by simp only [List.length_append, List.length_singleton]; push_cast; omega)]
  have hlast : strip (contText cont ++ t) ≠ [] := by
    rw [Ne, strip_eq_nil_iff]
    intro h
    apply hne
    rw [← ht, strip_eq_nil_iff]
    exact fun c hc => h c (by simp [hc])
  have h1 : rstrip (contText cont ++ t) = contText cont ++ t := by
    rw [← ht]
    exact rstrip_append_strip (by rw [ht]; exact hne)
  have h2 : rstrip (pre ++ [' ']) = rstrip pre := rstrip_append_blank (by simp [isSpace])
  simp only [hlast, ne_eq, not_false_eq_true, if_true, h1, h2, List.nil_append, List.cons_append]

example : FitsInto p!"m1" p!"     " 14 [p!"1001", p!"2", p!" 8016", p!" ", p!"1"] [p!"1001", p!"2"] [[p!"8016", p!"1"]] :=
  ⟨by decide, by decide, by decide, by decide⟩
example : wrapTokens p!"m1" [p!"1001", p!"2", p!" 8016", p!" ", p!"1"] 14 p!"     " = .ok [p!"m1 1001 2 8016", p!"     1"] := by decide

end Props
