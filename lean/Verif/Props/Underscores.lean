/-
C320: the numbers of cards, and characters that are no digits.
-/
import Verif.Model.McnpInput
import Verif.Proofs.McnpInput
import Verif.Proofs.NatStr
import Verif.Proofs.Except

namespace Props
open Py McnpInput NeutUtilities
variable {F : Type}

private theorem digits_step {c : Char} (hc : c.isDigit = true) (acc : Nat) (cs : Str) : natDigits acc (c :: cs) = natDigits (acc * 10 + (c.toNat - 48)) cs := by
  have hu : c ≠ '_' := by rintro rfl; revert hc; decide
  rw [natDigits.eq_def]
  split
  · rename_i h; cases h
  · rename_i h; cases h; exact absurd rfl hu
  · rename_i h; cases h; rw [if_pos hc]

private theorem digits_under {d : Char} {v : Str} (hd : d.isDigit = true) : ∀ (u : Str), (∀ c ∈ u, c.isDigit = true) → ∀ acc,
    natDigits acc (u ++ '_' :: d :: v) = natDigits acc (u ++ d :: v) := by
  intro u
  induction u with
  | nil =>
    intro _ acc
    rw [List.nil_append, List.nil_append, digits_step hd]
    show (if d.isDigit = true then _ else _) = _
    rw [if_pos hd]
  | cons c u ih =>
    intro h acc
    rw [List.cons_append, List.cons_append, digits_step (h c (by simp)), digits_step (h c (by simp))]
    exact ih (fun x hx => h x (List.mem_cons_of_mem _ hx)) _

private theorem under_int {a d : Char} {u v : Str} (ha : a.isDigit = true) (hu : ∀ c ∈ u, c.isDigit = true) (hd : d.isDigit = true)
    (hv : ∀ c ∈ v, c.isDigit = true) : pyInt (a :: (u ++ '_' :: d :: v)) = pyInt (a :: (u ++ d :: v)) := by
  have s1 : strip (a :: (u ++ '_' :: d :: v)) = a :: (u ++ '_' :: d :: v) := strip_word (by
    intro c hc
    simp only [List.mem_cons, List.mem_append] at hc
    rcases hc with rfl | hc | rfl | rfl | hc
    · exact isDigit_not_space ha
    · exact isDigit_not_space (hu c hc)
    · decide
    · exact isDigit_not_space hd
    · exact isDigit_not_space (hv c hc))
  have s2 : strip (a :: (u ++ d :: v)) = a :: (u ++ d :: v) := strip_word (by
    intro c hc
    simp only [List.mem_cons, List.mem_append] at hc
    rcases hc with rfl | hc | rfl | hc
    · exact isDigit_not_space ha
    · exact isDigit_not_space (hu c hc)
    · exact isDigit_not_space hd
    · exact isDigit_not_space (hv c hc))
  have m : a ≠ '-' ∧ a ≠ '+' := by constructor <;> (rintro rfl; revert ha; decide)
  have nat : ∀ t : Str, strip (a :: t) = a :: t → pyInt (a :: t) = (natDigits (a.toNat - 48) t).map (fun n => (n : Int)) := by
    intro t ht
    unfold pyInt
    rw [ht]
    split
    · rename_i h; cases h; exact absurd rfl m.1
    · rename_i h; cases h; exact absurd rfl m.2
    · simp [pyNat, ha]
  rw [nat _ s1, nat _ s2, digits_under hd u hu]

private theorem bad_digits : ∀ (s : Str) (acc : Nat), (∃ c ∈ s, c.isDigit = false ∧ c ≠ '_') → natDigits acc s = none := by
  intro s
  induction hn : s.length using Nat.strong_induction_on generalizing s with
  | _ n ih =>
    subst hn
    intro acc h
    rw [natDigits.eq_def]
    split
    · obtain ⟨c, hc, -⟩ := h; cases hc
    · rename_i d cs
      by_cases hd : d.isDigit = true
      · rw [if_pos hd]
        refine ih cs.length (by simp only [List.length_cons]; omega) cs rfl _ ?_
        obtain ⟨c, hc, h1, h2⟩ := h
        rcases List.mem_cons.1 hc with rfl | hc
        · exact absurd rfl h2
        · rcases List.mem_cons.1 hc with rfl | hc
          · rw [hd] at h1; cases h1
          · exact ⟨c, hc, h1, h2⟩
      · rw [if_neg hd]
    · rename_i d cs _
      by_cases hd : d.isDigit = true
      · rw [if_pos hd]
        refine ih cs.length (by simp) cs rfl _ ?_
        obtain ⟨c, hc, h1, h2⟩ := h
        rcases List.mem_cons.1 hc with rfl | hc
        · rw [hd] at h1; cases h1
        · exact ⟨c, hc, h1, h2⟩
      · rw [if_neg hd]

/-- A character that no number has. -/
def NoNumberChar (c : Char) : Prop := c.isDigit = false ∧ c ≠ '_' ∧ c ≠ '+' ∧ c ≠ '-' ∧ isSpace c = false

private theorem bad_nat {s : Str} (h : ∃ c ∈ s, c.isDigit = false ∧ c ≠ '_') : pyNat s = none := by
  cases s with
  | nil => rfl
  | cons a s =>
    simp only [pyNat]
    by_cases ha : a.isDigit = true
    · rw [if_pos ha]
      obtain ⟨c, hc, h1, h2⟩ := h
      rcases List.mem_cons.1 hc with rfl | hc
      · rw [ha] at h1; cases h1
      · exact bad_digits s _ ⟨c, hc, h1, h2⟩
    · rw [if_neg ha]

private theorem bad_int {s : Str} (h : ∃ c ∈ s, NoNumberChar c) : pyInt s = none := by
  obtain ⟨c, hc, h1, h2, h3, h4, h5⟩ := h
  have hm : c ∈ strip s := by
    obtain ⟨a, b, he, ha, hb⟩ := strip_decomp s
    rw [he] at hc
    rcases List.mem_append.1 hc with hc | hc
    · rcases List.mem_append.1 hc with hc | hc
      · rw [ha c hc] at h5; cases h5
      · exact hc
    · rw [hb c hc] at h5; cases h5
  unfold pyInt
  split
  · rename_i cs he
    rw [he] at hm
    rw [bad_nat ⟨c, (List.mem_cons.1 hm).resolve_left h4, h1, h2⟩]; rfl
  · rename_i cs he
    rw [he] at hm
    rw [bad_nat ⟨c, (List.mem_cons.1 hm).resolve_left h3, h1, h2⟩]; rfl
  · rw [bad_nat ⟨c, hm, h1, h2⟩]; rfl

/-- C320 is violated: an underscore between two digits of the number of a cell or its material, which MCNP does not know, is left out. -/
theorem C320_cell_violated (flt : Str → Option F) {a d : Char} {u v : Str} (ha : a.isDigit = true) (hu : ∀ c ∈ u, c.isDigit = true)
    (hd : d.isDigit = true) (hv : ∀ c ∈ v, c.isDigit = true) (w : Str) (ws : List Str) :
    startCell flt ((a :: (u ++ '_' :: d :: v)) :: ws) = startCell flt ((a :: (u ++ d :: v)) :: ws) ∧
    startCell flt (w :: (a :: (u ++ '_' :: d :: v)) :: ws) = startCell flt (w :: (a :: (u ++ d :: v)) :: ws) := by
  have h := under_int ha hu hd hv
  constructor <;> simp only [startCell, orErr, ex_ok_bind, List.getElem?_cons_zero, List.getElem?_cons_succ, List.drop_succ_cons, h]

private theorem lower_digits {s : Str} (h : ∀ c ∈ s, c.isDigit = true ∨ c = '_') : lower s = s := by
  unfold lower
  rw [List.map_congr_left (g := id), List.map_id]
  intro c hc
  rcases h c hc with h | rfl
  · exact digit_toLower_self h
  · rfl

private theorem first_word {w : Str} {ws : List Str} (hw : ' ' ∉ w) (hws : ∀ x ∈ ws, ' ' ∉ x) :
    splitOn ' ' (lower (join p!" " (w :: ws))) = lower w :: ws.map lower := by
  rw [splitOn_lower (by decide)]
  have : splitOn ' ' (join p!" " (w :: ws)) = w :: ws := splitOn_join (by simp) (by simpa using ⟨hw, hws⟩)
  rw [this, List.map_cons]

/-- C320 is violated: so is one in the number of a surface. -/
theorem C320_surface_violated {a d : Char} {u v : Str} (ha : a.isDigit = true) (hu : ∀ c ∈ u, c.isDigit = true)
    (hd : d.isDigit = true) (hv : ∀ c ∈ v, c.isDigit = true) {ws : List Str} (hws : ∀ x ∈ ws, ' ' ∉ x) :
    processSurfaceLine (join p!" " ((a :: (u ++ '_' :: d :: v)) :: ws)) = processSurfaceLine (join p!" " ((a :: (u ++ d :: v)) :: ws)) := by
  have h := under_int ha hu hd hv
  have l1 : ∀ c ∈ a :: (u ++ '_' :: d :: v), c.isDigit = true ∨ c = '_' := by
    intro c hc
    simp only [List.mem_cons, List.mem_append] at hc
    rcases hc with rfl | hc | rfl | rfl | hc
    · exact .inl ha
    · exact .inl (hu c hc)
    · exact .inr rfl
    · exact .inl hd
    · exact .inl (hv c hc)
  have l2 : ∀ c ∈ a :: (u ++ d :: v), c.isDigit = true ∨ c = '_' := by
    intro c hc
    simp only [List.mem_cons, List.mem_append] at hc
    rcases hc with rfl | hc | rfl | hc
    · exact .inl ha
    · exact .inl (hu c hc)
    · exact .inl hd
    · exact .inl (hv c hc)
  have ns : ∀ s : Str, (∀ c ∈ s, c.isDigit = true ∨ c = '_') → ' ' ∉ s := by
    intro s hs hm
    rcases hs _ hm with h | h <;> revert h <;> decide
  unfold processSurfaceLine
  simp only [first_word (ns _ l1) hws, first_word (ns _ l2) hws, lower_digits l1, lower_digits l2, List.getElem?_cons_zero, orErr, ex_ok_bind, h, checkSurfTransform,
    List.getElem?_cons_succ, List.drop_succ_cons]

/-- C320 (part that holds): any other character that is no part of a number is refused. Missing: underscores (`C320_cell_violated`,
    `C320_surface_violated`). -/
theorem C320_cell_partial (flt : Str → Option F) {w : Str} (h : ∃ c ∈ w, NoNumberChar c) (ws : List Str) :
    startCell flt (w :: ws) = .error .ValueError ∧ ∀ x n, pyInt x = some n → startCell flt (x :: w :: ws) = .error .ValueError := by
  have hb := bad_int h
  constructor
  · simp only [startCell, orErr, List.getElem?_cons_zero, ex_ok_bind, hb]; rfl
  · intro x n hx
    simp only [startCell, orErr, List.getElem?_cons_zero, List.getElem?_cons_succ, ex_ok_bind, hb, hx]; rfl

theorem C320_surface_partial {w : Str} (h : ∃ c ∈ w, NoNumberChar c.toLower) (hw : ' ' ∉ w) {ws : List Str} (hws : ∀ x ∈ ws, ' ' ∉ x) :
    processSurfaceLine (join p!" " (w :: ws)) = .error .ValueError := by
  obtain ⟨c, hc, h⟩ := h
  have hb : pyInt (lower w) = none := bad_int ⟨c.toLower, List.mem_map_of_mem hc, h⟩
  unfold processSurfaceLine
  simp only [first_word hw hws, List.getElem?_cons_zero, orErr, ex_ok_bind, hb]
  rfl

example : processSurfaceLine p!"1_0 so 3" = .ok ⟨10, p!"so", [p!"3"], none⟩ ∧ processSurfaceLine p!"1.0 so 3" = .error .ValueError := by decide +kernel
example : NoNumberChar '.' ∧ NoNumberChar 'a' := by unfold NoNumberChar; decide

end Props
