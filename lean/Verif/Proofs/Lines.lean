/- Lemmas about line splitting, newline translation, replacement and words. -/
import Verif.Proofs.Str
import Verif.Spec.Common

namespace Py
open Spec

theorem char_eq_of_toNat {c d : Char} (h : c.toNat = d.toNat) : c = d := Char.toNat_inj.1 h

theorem isLineBreak_iff {c : Char} : isLineBreak c = true ↔ c ∈ boundaries := by
  constructor
  · intro h
    have h' : c.toNat = 10 ∨ c.toNat = 11 ∨ c.toNat = 12 ∨ c.toNat = 13 ∨ c.toNat = 28 ∨ c.toNat = 29 ∨
        c.toNat = 30 ∨ c.toNat = 0x85 ∨ c.toNat = 0x2028 ∨ c.toNat = 0x2029 := by
      simp only [isLineBreak, Bool.or_eq_true, Bool.and_eq_true, decide_eq_true_eq, beq_iff_eq] at h
      omega
    rcases h' with h | h | h | h | h | h | h | h | h | h
    · rw [char_eq_of_toNat (d := '\n') h]; decide
    · rw [char_eq_of_toNat (d := '\x0b') h]; decide
    · rw [char_eq_of_toNat (d := '\x0c') h]; decide
    · rw [char_eq_of_toNat (d := '\r') h]; decide
    · rw [char_eq_of_toNat (d := '\x1c') h]; decide
    · rw [char_eq_of_toNat (d := '\x1d') h]; decide
    · rw [char_eq_of_toNat (d := '\x1e') h]; decide
    · rw [char_eq_of_toNat (d := '\u0085') h]; decide
    · rw [char_eq_of_toNat (d := '\u2028') h]; decide
    · rw [char_eq_of_toNat (d := '\u2029') h]; decide
  · intro h
    simp only [boundaries, List.mem_cons, List.not_mem_nil, or_false] at h
    rcases h with rfl | rfl | rfl | rfl | rfl | rfl | rfl | rfl | rfl | rfl <;> decide

theorem isLineBreak_false_iff {c : Char} : isLineBreak c = false ↔ c ∉ boundaries := by
  rw [← isLineBreak_iff]; simp

/-! ### univNL -/

theorem univNL_cons {c : Char} {cs : Str} (h : c ≠ '\r') : univNL (c :: cs) = c :: univNL cs := by
  rw [univNL.eq_3]
  · simp [h]
  · intro cs' hc; exact absurd hc h

theorem not_mem_univNL (s : Str) : '\r' ∉ univNL s := by
  fun_induction univNL s with
  | case1 => simp
  | case2 cs ih => simp [ih]
  | case3 c cs _ ih =>
    by_cases h : c = '\r'
    · simp [h, ih]
    · simp [h, ih, Ne.symm h]

theorem univNL_eq_self {s : Str} (h : '\r' ∉ s) : univNL s = s := by
  induction s with
  | nil => rfl
  | cons c cs ih =>
    have hc : c ≠ '\r' := by rintro rfl; simp at h
    rw [univNL_cons hc, ih (by intro h'; exact h (by simp [h']))]

theorem univNL_eq_self_iff {s : Str} : univNL s = s ↔ '\r' ∉ s := by
  constructor
  · intro h; rw [← h]; exact not_mem_univNL s
  · exact univNL_eq_self

theorem univNL_filter (s : Str) :
    (univNL s).filter (fun c => !isLineBreak c) = s.filter (fun c => !isLineBreak c) := by
  fun_induction univNL s with
  | case1 => rfl
  | case2 cs ih =>
    rw [List.filter_cons_of_neg (by decide), ih, List.filter_cons_of_neg (by decide),
      List.filter_cons_of_neg (by decide)]
  | case3 c cs _ ih =>
    by_cases h : c = '\r'
    · subst h
      rw [if_pos rfl, List.filter_cons_of_neg (by decide), ih, List.filter_cons_of_neg (by decide)]
    · rw [if_neg h, List.filter_cons, ih, List.filter_cons]

/-! ### splitlines -/

theorem splitlines_cons_pos {c : Char} {cs : Str} (hb : isLineBreak c = true) (hc : c ≠ '\r') :
    splitlines (c :: cs) = [] :: splitlines cs := by
  rw [splitlines.eq_3]
  · simp [hb]
  · intro cs' h; exact absurd h hc

theorem splitlines_cons_neg {c : Char} {cs : Str} (hb : isLineBreak c = false) :
    splitlines (c :: cs) = (c :: (splitlines cs).headD []) :: (splitlines cs).tail := by
  rw [splitlines.eq_3]
  · simp only [hb, Bool.false_eq_true, if_false]
    split
    · next h => simp [h]
    · next l ls h => simp [h]
  · intro cs' h; subst h; exact absurd hb (by decide)

theorem splitlines_line_append {l rest : Str} (h : ∀ c ∈ l, isLineBreak c = false) :
    splitlines (l ++ '\n' :: rest) = l :: splitlines rest := by
  induction l with
  | nil => exact splitlines_cons_pos (by decide) (by decide)
  | cons c cs ih =>
    rw [List.cons_append, splitlines_cons_neg (h c (by simp)), ih (fun c hc => h c (by simp [hc]))]
    rfl

theorem splitlines_flatMap {ls : List Str} (h : ∀ l ∈ ls, ∀ c ∈ l, isLineBreak c = false) :
    splitlines (ls.flatMap (fun l => l ++ ['\n'])) = ls := by
  induction ls with
  | nil => rfl
  | cons l ls ih =>
    rw [List.flatMap_cons, List.append_assoc, List.singleton_append,
      splitlines_line_append (h l (by simp)), ih (fun l hl => h l (by simp [hl]))]

theorem mem_splitlines {s l : Str} (h : l ∈ splitlines s) : ∀ c ∈ l, isLineBreak c = false := by
  fun_induction splitlines s generalizing l with
  | case1 => simp at h
  | case2 cs ih =>
    rcases List.mem_cons.1 h with h | h
    · simp [h]
    · exact ih h
  | case3 c cs _ hb ih =>
    rcases List.mem_cons.1 h with h | h
    · simp [h]
    · exact ih h
  | case4 c cs _ hb hs ih =>
    simp at h; subst h; simpa using hb
  | case5 c cs _ hb l' ls hs ih =>
    rcases List.mem_cons.1 h with h | h
    · subst h
      intro d hd
      rcases List.mem_cons.1 hd with hd | hd
      · rw [hd]; simpa using hb
      · exact ih (l := l') (by rw [hs]; simp) d hd
    · exact ih (by rw [hs]; simp [h])

theorem splitlines_flatten (s : Str) :
    (splitlines s).flatten = s.filter (fun c => !isLineBreak c) := by
  fun_induction splitlines s with
  | case1 => rfl
  | case2 cs ih =>
    rw [List.filter_cons_of_neg (by decide), List.filter_cons_of_neg (by decide), ← ih]; rfl
  | case3 c cs _ hb ih => rw [List.filter_cons_of_neg (by simp [hb]), ← ih]; rfl
  | case4 c cs _ hb hs ih =>
    rw [List.filter_cons_of_pos (by simpa using hb), ← ih, hs]; rfl
  | case5 c cs _ hb l' ls hs ih =>
    rw [List.filter_cons_of_pos (by simpa using hb), ← ih, hs]; rfl

/-! ### words -/

theorem isWords_splitWs (s : Str) : IsWords s (splitWs s) := by
  induction hn : s.length using Nat.strong_induction_on generalizing s with
  | _ n ih =>
    subst hn
    obtain ⟨a, ha, ha'⟩ := lstrip_decomp s
    cases hl : lstrip s with
    | nil =>
      rw [splitWs_blank (lstrip_eq_nil_iff.1 hl)]
      exact .blank (lstrip_eq_nil_iff.1 hl)
    | cons c cs =>
      have hc := lstrip_head hl
      have hw : IsWord ((c :: cs).takeWhile (fun x => !isSpace x)) := by
        refine ⟨by simp [hc], ?_⟩
        intro d hd
        simpa using List.mem_takeWhile_imp hd
      set w := (c :: cs).takeWhile (fun x => !isSpace x) with hwdef
      set r := (c :: cs).dropWhile (fun x => !isSpace x) with hrdef
      have hs : s = a ++ w ++ r := by
        rw [List.append_assoc, hwdef, hrdef, List.takeWhile_append_dropWhile, ← hl, ← ha]
      have hlen : r.length < s.length := by
        rw [hs]; simp only [List.length_append]
        have := List.length_pos_of_ne_nil hw.1
        omega
      have hr : ∀ d ∈ r.head?, isSpace d = true := by
        intro d hd
        cases hr' : r with
        | nil => simp [hr'] at hd
        | cons x xs =>
          simp [hr'] at hd
          subst hd
          have := List.head_dropWhile_not (fun x => !isSpace x) (l := c :: cs) (by rw [← hrdef, hr']; simp)
          simp only [← hrdef, hr', List.head_cons] at this
          simpa using this
      have hsplit : splitWs s = w :: splitWs r := by
        rw [hs, List.append_assoc, splitWs_blank_append ha']
        cases hr' : r with
        | nil => simp [splitWs_word hw.1 hw.2]
        | cons x xs =>
          have hx : isSpace x = true := hr x (by simp [hr'])
          rw [splitWs_append_space hx, splitWs_word hw.1 hw.2, splitWs_cons_space hx]; rfl
      rw [hsplit]
      have := IsWords.word (pre := a) ha' hw hr (ih _ hlen r rfl)
      rwa [← hs] at this

theorem splitWs_of_isWords {s : Str} {ws : List Str} (h : IsWords s ws) : splitWs s = ws := by
  induction h with
  | blank h => exact splitWs_blank h
  | @word pre w rest ws hp hw hr _ ih =>
    rw [List.append_assoc, splitWs_blank_append hp]
    cases rest with
    | nil => simp at ih; simp [splitWs_word hw.1 hw.2, ← ih]
    | cons x xs =>
      have hx : isSpace x = true := hr x (by simp)
      rw [splitWs_append_space hx, splitWs_word hw.1 hw.2, ← ih, splitWs_cons_space hx]; rfl

theorem isWords_iff {s : Str} {ws : List Str} : IsWords s ws ↔ splitWs s = ws :=
  ⟨splitWs_of_isWords, fun h => h ▸ isWords_splitWs s⟩

/-! ### replace -/

theorem replaceAux_skip (old new : Str) (k : Nat) (s : Str) :
    replaceAux old new k s = replaceAux old new 0 (s.drop k) := by
  induction s generalizing k with
  | nil => cases k <;> simp [replaceAux]
  | cons c cs ih =>
    cases k with
    | zero => rfl
    | succ k => simp only [replaceAux, List.drop_succ_cons]; exact ih k

theorem replaceAux_hit {old new rest : Str} (h : old ≠ []) :
    replaceAux old new 0 (old ++ rest) = new ++ replaceAux old new 0 rest := by
  cases old with
  | nil => exact absurd rfl h
  | cons c cs =>
    have : (c :: cs).isPrefixOf (c :: (cs ++ rest)) = true := by
      rw [List.isPrefixOf_iff_prefix]; exact ⟨rest, rfl⟩
    simp only [List.cons_append, replaceAux, this, if_true]
    rw [replaceAux_skip]
    simp

theorem replaceAux_miss {old new : Str} {c : Char} {cs : Str} (h : ¬ old <+: c :: cs) :
    replaceAux old new 0 (c :: cs) = c :: replaceAux old new 0 cs := by
  have : old.isPrefixOf (c :: cs) = false := by
    rw [← Bool.not_eq_true, List.isPrefixOf_iff_prefix]; exact h
  simp [replaceAux, this]

theorem replaceAux_absent {old new s : Str} (h : ¬ old <:+: s) : replaceAux old new 0 s = s := by
  induction s with
  | nil => rfl
  | cons c cs ih =>
    rw [List.infix_cons_iff, not_or] at h
    rw [replaceAux_miss h.1, ih h.2]

theorem replace_of_ne_nil {s old new : Str} (h : old ≠ []) : replace s old new = replaceAux old new 0 s := by
  simp [replace, h]

theorem infix_split {old s : Str} (h : old <:+: s) (hne : old ≠ []) :
    ∃ pre rest, s = pre ++ old ++ rest ∧ ¬ old <:+: (pre ++ old).dropLast := by
  induction s with
  | nil => exact absurd (List.infix_nil.1 h) hne
  | cons c cs ih =>
    by_cases hp : old <+: c :: cs
    · obtain ⟨r, hr⟩ := hp
      refine ⟨[], r, by simp [hr], ?_⟩
      intro hi
      have := hi.length_le
      simp at this
      have := List.length_pos_of_ne_nil hne
      omega
    · have hi : old <:+: cs := (List.infix_cons_iff.1 h).resolve_left hp
      obtain ⟨pre, rest, hs, hn⟩ := ih hi
      refine ⟨c :: pre, rest, by simp [hs], ?_⟩
      intro hi2
      have hne' : pre ++ old ≠ [] := by simp [hne]
      rw [List.cons_append, List.dropLast_cons_of_ne_nil hne', List.infix_cons_iff] at hi2
      rcases hi2 with hi2 | hi2
      · apply hp
        obtain ⟨t, ht⟩ := hi2
        refine ⟨t ++ ((pre ++ old).getLast hne' :: rest), ?_⟩
        rw [← List.append_assoc, ht, List.cons_append, hs]
        congr 1
        conv_rhs => rw [← List.dropLast_append_getLast hne']
        simp
      · exact hn hi2

theorem replaceAux_first {old new pre : Str} (hne : old ≠ []) (rest : Str)
    (hfirst : ¬ old <:+: (pre ++ old).dropLast) :
    replaceAux old new 0 (pre ++ old ++ rest) = pre ++ new ++ replaceAux old new 0 rest := by
  have key : ∀ p : Str, p <:+ pre →
      replaceAux old new 0 (p ++ old ++ rest) = p ++ new ++ replaceAux old new 0 rest := by
    intro p
    induction p with
    | nil => intro _; simpa using replaceAux_hit hne
    | cons c p ihp =>
      intro hsuf
      have hmiss : ¬ old <+: c :: (p ++ old ++ rest) := by
        rintro ⟨t, ht⟩
        apply hfirst
        obtain ⟨q, hq⟩ := hsuf
        have hlen : old.length ≤ ((c :: p) ++ old).dropLast.length := by simp
        have h1 : old <+: ((c :: p) ++ old).dropLast := by
          apply List.prefix_of_prefix_length_le (l₃ := c :: (p ++ old ++ rest)) ⟨t, ht⟩ _ hlen
          refine (List.dropLast_prefix _).trans ⟨rest, by simp⟩
        have h2 : ((c :: p) ++ old).dropLast <:+ (pre ++ old).dropLast := by
          refine ⟨q, ?_⟩
          rw [← hq, List.append_assoc, List.dropLast_append_of_ne_nil (l := c :: p ++ old) (by simp)]
        exact h1.isInfix.trans h2.isInfix
      rw [List.cons_append, List.cons_append, replaceAux_miss hmiss,
        ihp ((List.suffix_cons c p).trans hsuf)]
      rfl
  exact key pre (List.suffix_refl _)

theorem replaceAux_replaced {old new : Str} (hne : old ≠ []) (s : Str) :
    Replaced old new s (replaceAux old new 0 s) := by
  induction hn : s.length using Nat.strong_induction_on generalizing s with
  | _ n ih =>
    subst hn
    by_cases h : old <:+: s
    · obtain ⟨pre, rest, hs, hfirst⟩ := infix_split h hne
      have hrest : rest.length < s.length := by
        rw [hs]; have := List.length_pos_of_ne_nil hne; simp; omega
      rw [hs, replaceAux_first hne rest hfirst]
      exact .hit hfirst (ih _ hrest rest rfl)
    · rw [replaceAux_absent h]; exact .done h

theorem replaced_unique {old new s t : Str} (hne : old ≠ []) (h : Replaced old new s t) :
    t = replaceAux old new 0 s := by
  induction h with
  | done h => rw [replaceAux_absent h]
  | hit hf _ ih => rw [replaceAux_first hne _ hf, ih]

/-- Universal newlines are two replacements. -/
theorem univNL_eq_replace (s : Str) :
    univNL s = replaceAux ['\r'] ['\n'] 0 (replaceAux ['\r', '\n'] ['\n'] 0 s) := by
  fun_induction univNL s with
  | case1 => rfl
  | case2 cs ih =>
    have h1 := replaceAux_hit (old := ['\r', '\n']) (new := ['\n']) (rest := cs) (by simp)
    simp only [List.cons_append, List.nil_append] at h1
    rw [h1, replaceAux_miss (by simp), ih]
  | case3 c cs hn ih =>
    rw [replaceAux_miss (old := ['\r', '\n'])]
    · by_cases h : c = '\r'
      · subst h
        have h1 := fun rest => replaceAux_hit (old := ['\r']) (new := ['\n']) (rest := rest) (by simp)
        simp only [List.cons_append, List.nil_append] at h1
        rw [if_pos rfl, h1, ih]
      · rw [if_neg h, replaceAux_miss, ih]
        simpa using Ne.symm h
    · rintro ⟨t, ht⟩
      simp only [List.cons_append, List.nil_append, List.cons.injEq] at ht
      exact hn t ht.1.symm ht.2.symm

end Py
