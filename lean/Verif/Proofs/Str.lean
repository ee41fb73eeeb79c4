/- Lemmas about the string functions of `Verif.Py.Str`. -/
import Verif.Py.Str
import Mathlib.Data.List.Infix
import Mathlib.Tactic.Common

namespace Py

variable {α : Type*}

/-! ### Substrings and prefixes -/

theorem startsWith_iff {s pre : Str} : startsWith s pre = true ↔ pre <+: s := by
  simp [startsWith, List.isPrefixOf_iff_prefix]

theorem endsWith_iff {s suf : Str} : endsWith s suf = true ↔ suf <:+ s := by
  simp [endsWith, List.isSuffixOf_iff_suffix]

theorem hasSub_iff {sub s : Str} : hasSub sub s = true ↔ sub <:+: s := by
  induction s with
  | nil => simp [hasSub, List.isEmpty_iff]
  | cons c cs ih =>
    simp only [hasSub, Bool.or_eq_true, List.isPrefixOf_iff_prefix, ih, List.infix_cons_iff]

theorem hasSub_false_iff {sub s : Str} : hasSub sub s = false ↔ ¬ sub <:+: s := by
  rw [← hasSub_iff]; simp

/-! ### splitP -/

theorem splitP_ne_nil (p : Char → Bool) (s : Str) : splitP p s ≠ [] := by
  cases s with
  | nil => simp [splitP]
  | cons c cs =>
    simp only [splitP]
    split
    · simp
    · split <;> simp

theorem splitP_cons_pos {p : Char → Bool} {c : Char} (h : p c = true) (cs : Str) :
    splitP p (c :: cs) = [] :: splitP p cs := by simp [splitP, h]

theorem splitP_cons_neg {p : Char → Bool} {c : Char} (h : p c = false) (cs : Str) :
    splitP p (c :: cs) = (c :: (splitP p cs).headD []) :: (splitP p cs).tail := by
  rw [splitP]
  simp only [h, Bool.false_eq_true, if_false]
  split
  · next h' => exact absurd h' (splitP_ne_nil p cs)
  · next l ls h' => simp [h']

theorem splitP_of_not_mem {p : Char → Bool} {s : Str} (h : ∀ c ∈ s, p c = false) :
    splitP p s = [s] := by
  induction s with
  | nil => rfl
  | cons c cs ih =>
    rw [splitP_cons_neg (h c (by simp)), ih (fun c hc => h c (by simp [hc]))]
    rfl

theorem splitP_append_sep {p : Char → Bool} {c : Char} (hc : p c = true) (a b : Str) :
    splitP p (a ++ c :: b) = splitP p a ++ splitP p b := by
  induction a with
  | nil => simp [splitP, hc]
  | cons x xs ih =>
    by_cases hx : p x = true
    · simp [splitP_cons_pos hx, ih]
    · have hx : p x = false := by simpa using hx
      rw [List.cons_append, splitP_cons_neg hx, splitP_cons_neg hx, ih]
      have := splitP_ne_nil p xs
      cases h : splitP p xs with
      | nil => exact absurd h this
      | cons l ls => simp

theorem mem_splitP {p : Char → Bool} {s w : Str} (h : w ∈ splitP p s) : ∀ c ∈ w, p c = false := by
  induction s generalizing w with
  | nil => simp [splitP] at h; simp [h]
  | cons x xs ih =>
    by_cases hx : p x = true
    · rw [splitP_cons_pos hx] at h
      rcases List.mem_cons.1 h with h | h
      · simp [h]
      · exact ih h
    · have hx : p x = false := by simpa using hx
      rw [splitP_cons_neg hx] at h
      have hne := splitP_ne_nil p xs
      cases hs : splitP p xs with
      | nil => exact absurd hs hne
      | cons l ls =>
        rw [hs] at h
        simp only [List.headD_cons, List.tail_cons, List.mem_cons] at h
        rcases h with h | h
        · subst h
          intro c hc
          rcases List.mem_cons.1 hc with hc | hc
          · rw [hc]; exact hx
          · exact ih (by rw [hs]; simp) c hc
        · exact ih (by rw [hs]; simp [h])

theorem splitP_flatten (p : Char → Bool) (s : Str) :
    (splitP p s).flatten = s.filter (fun c => !p c) := by
  induction s with
  | nil => simp [splitP]
  | cons x xs ih =>
    by_cases hx : p x = true
    · simp [splitP_cons_pos hx, ih, hx]
    · have hx : p x = false := by simpa using hx
      rw [splitP_cons_neg hx]
      have hne := splitP_ne_nil p xs
      cases hs : splitP p xs with
      | nil => exact absurd hs hne
      | cons l ls => rw [hs] at ih; simpa [hx] using ih

theorem join_cons {sep x : Str} {xs : List Str} (h : xs ≠ []) :
    join sep (x :: xs) = x ++ (sep ++ join sep xs) := by
  cases xs with
  | nil => exact absurd rfl h
  | cons y ys => rfl

/-- Joining the pieces with the separator gives the string back. -/
theorem join_splitOn (c : Char) (s : Str) : join [c] (splitOn c s) = s := by
  unfold splitOn
  induction s with
  | nil => rfl
  | cons x xs ih =>
    have hne := splitP_ne_nil (· == c) xs
    by_cases hx : (x == c) = true
    · rw [splitP_cons_pos (p := (· == c)) hx, join_cons hne, ih]
      simp only [beq_iff_eq] at hx
      simp [hx]
    · have hx : (x == c) = false := by simpa using hx
      rw [splitP_cons_neg (p := (· == c)) hx]
      cases hs : splitP (· == c) xs with
      | nil => exact absurd hs hne
      | cons l ls =>
        rw [hs] at ih
        cases ls with
        | nil => simpa [join] using ih
        | cons m ms => simp [join] at ih ⊢; exact ih

/-! ### splitWs -/

theorem splitWs_append_space {c : Char} (hc : isSpace c = true) (a b : Str) :
    splitWs (a ++ c :: b) = splitWs a ++ splitWs b := by
  simp [splitWs, splitP_append_sep hc]

@[simp] theorem splitWs_nil : splitWs [] = [] := rfl

theorem splitWs_cons_space {c : Char} (hc : isSpace c = true) (b : Str) :
    splitWs (c :: b) = splitWs b := by
  simpa using splitWs_append_space hc [] b

theorem splitWs_append_blank {a s : Str} (h : ∀ c ∈ s, isSpace c = true) :
    splitWs (a ++ s) = splitWs a := by
  induction s generalizing a with
  | nil => simp
  | cons c cs ih =>
    rw [splitWs_append_space (h c (by simp))]
    have := ih (a := []) (fun c hc => h c (by simp [hc]))
    simp at this
    simp [this]

theorem splitWs_blank {s : Str} (h : ∀ c ∈ s, isSpace c = true) : splitWs s = [] := by
  simpa using splitWs_append_blank (a := []) h

theorem splitWs_blank_append {a s : Str} (h : ∀ c ∈ s, isSpace c = true) :
    splitWs (s ++ a) = splitWs a := by
  induction s with
  | nil => simp
  | cons c cs ih =>
    rw [List.cons_append, splitWs_cons_space (h c (by simp))]
    exact ih (fun c hc => h c (by simp [hc]))

theorem splitWs_word {w : Str} (hne : w ≠ []) (h : ∀ c ∈ w, isSpace c = false) :
    splitWs w = [w] := by
  simp [splitWs, splitP_of_not_mem h, hne]

theorem mem_splitWs {s w : Str} (h : w ∈ splitWs s) : w ≠ [] ∧ ∀ c ∈ w, isSpace c = false := by
  simp only [splitWs, List.mem_filter] at h
  refine ⟨?_, mem_splitP h.1⟩
  intro hw; simp [hw] at h

theorem isSpace_space : isSpace ' ' = true := by decide

theorem splitWs_join {ws : List Str} (h : ∀ w ∈ ws, w ≠ [] ∧ ∀ c ∈ w, isSpace c = false) :
    splitWs (join [' '] ws) = ws := by
  induction ws with
  | nil => rfl
  | cons w ws ih =>
    have hw := h w (by simp)
    cases ws with
    | nil => simpa [join] using splitWs_word hw.1 hw.2
    | cons v vs =>
      have := ih (fun w hw => h w (by simp only [List.mem_cons] at hw ⊢; tauto))
      simp only [join, List.singleton_append]
      rw [splitWs_append_space isSpace_space, splitWs_word hw.1 hw.2, this]
      rfl

/-- Joining with single blanks and splitting on the blank gives the pieces back. -/
theorem splitOn_join {ws : List Str} (hne : ws ≠ []) {d : Char} (h : ∀ w ∈ ws, d ∉ w) :
    splitOn d (join [d] ws) = ws := by
  unfold splitOn
  induction ws with
  | nil => exact absurd rfl hne
  | cons w ws ih =>
    have hw : ∀ c ∈ w, (c == d) = false := by
      intro c hc
      have := h w (by simp)
      simp only [beq_eq_false_iff_ne]
      rintro rfl; exact this hc
    cases ws with
    | nil => simpa [join] using splitP_of_not_mem hw
    | cons v vs =>
      have := ih (by simp) (fun w hw => h w (by simp only [List.mem_cons] at hw ⊢; tauto))
      simp only [join, List.singleton_append]
      rw [splitP_append_sep (by simp), splitP_of_not_mem hw, this]
      rfl

/-! ### strip -/

theorem lstrip_decomp (s : Str) : ∃ a, s = a ++ lstrip s ∧ ∀ c ∈ a, isSpace c = true := by
  refine ⟨s.takeWhile isSpace, ?_, ?_⟩
  · simp [lstrip, List.takeWhile_append_dropWhile]
  · intro c hc; exact List.mem_takeWhile_imp hc

theorem rstrip_decomp (s : Str) : ∃ b, s = rstrip s ++ b ∧ ∀ c ∈ b, isSpace c = true := by
  refine ⟨s.rtakeWhile isSpace, ?_, ?_⟩
  · simp [rstrip, List.rdropWhile, List.rtakeWhile]
    rw [← List.reverse_append, List.takeWhile_append_dropWhile, List.reverse_reverse]
  · intro c hc; exact List.mem_rtakeWhile_imp hc

theorem strip_decomp (s : Str) : ∃ a b, s = a ++ strip s ++ b ∧ (∀ c ∈ a, isSpace c = true) ∧
    (∀ c ∈ b, isSpace c = true) := by
  obtain ⟨a, ha, ha'⟩ := lstrip_decomp s
  obtain ⟨b, hb, hb'⟩ := rstrip_decomp (lstrip s)
  refine ⟨a, b, ?_, ha', hb'⟩
  rw [List.append_assoc, strip, ← hb, ← ha]

theorem splitWs_rstrip (s : Str) : splitWs (rstrip s) = splitWs s := by
  obtain ⟨b, hb, hb'⟩ := rstrip_decomp s
  conv_rhs => rw [hb]
  rw [splitWs_append_blank hb']

theorem splitWs_strip (s : Str) : splitWs (strip s) = splitWs s := by
  obtain ⟨a, b, h, ha, hb⟩ := strip_decomp s
  conv_rhs => rw [h]
  rw [splitWs_append_blank hb, splitWs_blank_append ha]

theorem lstrip_head {s : Str} {c : Char} {cs : Str} (h : lstrip s = c :: cs) : isSpace c = false := by
  induction s with
  | nil => simp [lstrip] at h
  | cons x xs ih =>
    by_cases hx : isSpace x = true
    · exact ih (by simpa [lstrip, List.dropWhile_cons, hx] using h)
    · simp only [lstrip, List.dropWhile_cons, hx] at h
      simp at h
      rw [← h.1]; simpa using hx

theorem rstrip_last {s : Str} (h : rstrip s ≠ []) : isSpace ((rstrip s).getLast h) = false := by
  have := List.rdropWhile_last_not isSpace s h
  exact eq_false_of_ne_true this

theorem rstrip_eq_self_iff {s : Str} : rstrip s = s ↔ ∀ h : s ≠ [], isSpace (s.getLast h) = false := by
  simp [rstrip, List.rdropWhile_eq_self_iff]

theorem rstrip_append_blank {a b : Str} (h : ∀ c ∈ b, isSpace c = true) : rstrip (a ++ b) = rstrip a := by
  simp only [rstrip, List.rdropWhile, List.reverse_append]
  rw [List.dropWhile_append_of_pos (by simpa using h)]

theorem lstrip_eq_nil_iff {s : Str} : lstrip s = [] ↔ ∀ c ∈ s, isSpace c = true := by
  simp [lstrip, List.dropWhile_eq_nil_iff]

theorem rstrip_eq_nil_iff {s : Str} : rstrip s = [] ↔ ∀ c ∈ s, isSpace c = true := by
  simp [rstrip, List.rdropWhile_eq_nil_iff]

theorem strip_eq_nil_iff {s : Str} : strip s = [] ↔ ∀ c ∈ s, isSpace c = true := by
  constructor
  · intro h
    obtain ⟨a, b, hs, ha, hb⟩ := strip_decomp s
    rw [h] at hs
    intro c hc
    rw [hs] at hc
    simp at hc
    exact hc.elim (ha c) (hb c)
  · intro h
    rw [strip, lstrip_eq_nil_iff.2 h]; rfl

theorem splitWs_eq_nil_iff {s : Str} : splitWs s = [] ↔ ∀ c ∈ s, isSpace c = true := by
  refine ⟨?_, splitWs_blank⟩
  intro h
  induction s with
  | nil => simp
  | cons c cs ih =>
    by_cases hc : isSpace c = true
    · rw [splitWs_cons_space hc] at h
      intro d hd
      rcases List.mem_cons.1 hd with hd | hd
      · rw [hd]; exact hc
      · exact ih h d hd
    · have hc : isSpace c = false := by simpa using hc
      simp [splitWs, splitP_cons_neg hc] at h

end Py
