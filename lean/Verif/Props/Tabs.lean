/-
C266: MCNP inputs whose tabs were replaced by blanks.
-/
import Verif.Props.Spacing
import Verif.Props.NeutUtilities

namespace Props
open Py NeutUtilities McnpInput Spec Spec.Mcnp
variable {F : Type}

/-- A line typed with tabs, and the same line typed with blanks: empty lines, lines that start with a tab (maybe behind blanks) or with five
    blanks against continuation lines, or lines with the same first word in column 1, followed by a blank or a tab. -/
inductive Typed : Str → Str → Prop
  | empty : Typed [] []
  | cont {l l'} (h : (∃ k r, l = List.replicate k ' ' ++ '\t' :: r) ∨ Cont l) (h' : Cont l') (hw : SameWords l l') : Typed l l'
  | card {w r r'} (hw : IsWord w) (hr : (r = [] ∧ r' = []) ∨ ((r.head? = some ' ' ∨ r.head? = some '\t') ∧ r'.head? = some ' '))
      (hs : SameWords r r') : Typed (w ++ r) (w ++ r')

/-- The same for lines of a cell block: cards, lines that are neither cards nor continuation lines, or equal lines without tabs. -/
inductive CellTyped : Str → Str → Prop
  | card {l l'} (h : ∃ c ∈ l.head?, isDigit c = true) (h' : ∃ c ∈ l'.head?, isDigit c = true) (hw : SameWords l l') : CellTyped l l'
  | other {l l'} (h : ∃ c ∈ l.head?, isDigit c = false ∧ isSpace c = false) (h' : ∃ c ∈ l'.head?, isDigit c = false) (hc : ¬ Cont l')
      (hw : SameWords l l') : CellTyped l l'
  | same {l} (h : '\t' ∉ l) : CellTyped l l

private theorem sameWords_iff {a b : Str} : SameWords a b ↔ splitWs a = splitWs b := by
  constructor
  · rintro ⟨ws, h1, h2⟩
    rw [isWords_iff.1 h1, isWords_iff.1 h2]
  · intro h
    exact ⟨splitWs b, isWords_iff.2 h, isWords_iff.2 rfl⟩

private theorem tab_cons (n : Int) (c : Char) (l : Str) : replaceTabWithSpace (c :: l) n =
    (if c = '\t' then List.replicate n.toNat ' ' else [c]) ++ replaceTabWithSpace l n := by
  unfold replaceTabWithSpace
  rw [replace_char_eq, replace_char_eq, List.flatMap_cons]

private theorem tab_append (n : Int) (a b : Str) : replaceTabWithSpace (a ++ b) n = replaceTabWithSpace a n ++ replaceTabWithSpace b n := by
  unfold replaceTabWithSpace
  rw [replace_char_eq, replace_char_eq, replace_char_eq, List.flatMap_append]

private theorem tab_none (n : Int) {a : Str} (h : '\t' ∉ a) : replaceTabWithSpace a n = a := by
  induction a with
  | nil => rfl
  | cons c a ih =>
    rw [tab_cons, if_neg (fun hc => h (by simp [hc])), ih (fun hc => h (by simp [hc]))]
    rfl

private theorem tab_words {n : Int} (hn : 1 ≤ n) (l : Str) : splitWs (replaceTabWithSpace l n) = splitWs l := by
  obtain ⟨m, hm⟩ : ∃ m, n.toNat = m + 1 := ⟨n.toNat - 1, by omega⟩
  have key : ∀ k (l : Str), l.length ≤ k → ∀ p : Str, splitWs (p ++ replaceTabWithSpace l n) = splitWs (p ++ l) := by
    intro k
    induction k with
    | zero =>
      intro l hl p
      have : l = [] := List.length_eq_zero_iff.1 (by omega)
      subst this; rfl
    | succ k ih =>
      intro l hl p
      cases l with
      | nil => rfl
      | cons c l =>
        have hl' : l.length ≤ k := by simpa using hl
        rw [tab_cons]
        by_cases hc : c = '\t'
        · rw [if_pos hc, hc, hm, List.replicate_succ, List.cons_append, splitWs_append_sp, splitWs_append_space (by decide),
            splitWs_blank_append (by intro c hc; rw [List.eq_of_mem_replicate hc]; decide)]
          have := ih l hl' []
          simpa using this
        · rw [if_neg hc]
          have := ih l hl' (p ++ [c])
          simpa using this
  simpa using key l.length l le_rfl []

/-- C266: a line typed with tabs becomes, with five blanks or more for every tab, a line that differs from the one typed with blanks in the
    number of blanks only. -/
theorem C266_line {n : Int} (hn : 5 ≤ n) {l l' : Str} (h : Typed l l') : Spaced (replaceTabWithSpace l n) l' := by
  obtain ⟨m, hm⟩ : ∃ m, n.toNat = m + 5 := ⟨n.toNat - 5, by omega⟩
  cases h with
  | empty => exact .empty
  | cont h h' hw =>
    refine .cont ?_ h' (sameWords_iff.2 ((tab_words (by omega) l).trans (sameWords_iff.1 hw)))
    have five : ∀ (k : Nat) (r : Str), Cont (List.replicate (k + 5) ' ' ++ r) := by
      intro k r
      refine ⟨List.replicate k ' ' ++ r, ?_⟩
      rw [show k + 5 = 5 + k by omega, List.replicate_add, List.append_assoc]
      rfl
    rcases h with ⟨k, r, rfl⟩ | ⟨t, rfl⟩
    · rw [tab_append, tab_cons, if_pos rfl, tab_none _ (fun h => absurd (List.eq_of_mem_replicate h) (by decide)), hm, ← List.append_assoc,
        ← List.replicate_add, ← Nat.add_assoc]
      exact five _ _
    · rw [tab_append, tab_none _ (by decide)]
      exact ⟨_, rfl⟩
  | @card w r r' hw hr hs =>
    have hwt : '\t' ∉ w := fun h => absurd (hw.2 _ h) (by decide)
    rw [tab_append, tab_none _ hwt]
    refine .card hw ?_ (sameWords_iff.2 ((tab_words (by omega) r).trans (sameWords_iff.1 hs)))
    rcases hr with ⟨rfl, rfl⟩ | ⟨h1, h2⟩
    · exact .inl ⟨rfl, rfl⟩
    · refine .inr ⟨?_, h2⟩
      cases r with
      | nil => simp at h1
      | cons c r =>
        rw [tab_cons]
        simp only [List.head?_cons, Option.some.injEq] at h1
        rcases h1 with rfl | rfl
        · rfl
        · rw [if_pos rfl, hm]; rfl

/-- The same without a given number of blanks. -/
theorem C266_default {l l' : Str} (h : Typed l l') : Spaced (replaceTabWithSpace l) l' := C266_line (by decide) h

private theorem cell_line {n : Int} (hn : 1 ≤ n) {l l' : Str} (h : CellTyped l l') : CellSpaced (replaceTabWithSpace l n) l' := by
  have hd : ∀ {P : Char → Prop}, (¬ P '\t') → (∃ c ∈ l.head?, P c) → ∃ c ∈ (replaceTabWithSpace l n).head?, P c := by
    rintro P hP ⟨c, hc, h⟩
    cases l with
    | nil => simp at hc
    | cons d l =>
      simp only [List.head?_cons, Option.mem_def, Option.some.injEq] at hc
      subst hc
      rw [tab_cons, if_neg (by rintro rfl; exact hP h)]
      exact ⟨d, rfl, h⟩
  cases h with
  | card h h' hw => exact .card (hd (by decide) h) h' (sameWords_iff.2 ((tab_words hn l).trans (sameWords_iff.1 hw)))
  | other h h' hc hw =>
    obtain ⟨c, h1, h2, h3⟩ := hd (P := fun c => isDigit c = false ∧ isSpace c = false) (by decide) h
    refine .other ⟨c, h1, h2⟩ h' ?_ hc (sameWords_iff.2 ((tab_words hn l).trans (sameWords_iff.1 hw)))
    rintro ⟨t, ht⟩
    rw [← ht] at h1
    simp only [List.cons_append, List.head?_cons, Option.mem_def, Option.some.injEq] at h1
    rw [← h1] at h3
    exact absurd h3 (by decide)
  | same h => rw [tab_none n h]; exact .same

/-- C266 (part that holds): an input typed with tabs is, after the tabs are replaced by five blanks or more, read as the input typed with
    blanks. Missing: fewer blanks (`C266_few_violated`) and tabs in continuation lines of cells. -/
theorem C266_input_partial (flt : Str → Option F) (path path' : Str) {n : Int} (hn : 5 ≤ n) {a b c a' b' c' : List Str} {x y x' y' : Str}
    (ha : ∀ l ∈ a, ¬ Blank l) (hx : Blank x) (hb : ∀ l ∈ b, ¬ Blank l) (hy : Blank y)
    (hca : List.Forall₂ CellTyped a a') (hcb : List.Forall₂ Typed (x :: b) (x' :: b'))
    (hcc : List.Forall₂ Typed (y :: c) (y' :: c')) :
    BothOr SameRead (readLines flt path ((a ++ x :: (b ++ y :: c)).map (fun l => replaceTabWithSpace l n)))
      (readLines flt path' (a' ++ x' :: (b' ++ y' :: c'))) := by
  have bl : ∀ l : Str, Blank (replaceTabWithSpace l n) ↔ Blank l := by
    intro l
    have := tab_words (n := n) (by omega) l
    unfold Blank
    rw [← splitWs_eq_nil_iff, ← splitWs_eq_nil_iff, this]
  have nb : ∀ {p : List Str}, (∀ l ∈ p, ¬ Blank l) → ∀ l ∈ p.map (fun l => replaceTabWithSpace l n), ¬ Blank l := by
    intro p hp l hl
    obtain ⟨l', hl', rfl⟩ := List.mem_map.1 hl
    rw [bl]; exact hp l' hl'
  have mp : ∀ {R S : Str → Str → Prop} {p q : List Str}, (∀ l l', R l l' → S (replaceTabWithSpace l n) l') → List.Forall₂ R p q →
      List.Forall₂ S (p.map (fun l => replaceTabWithSpace l n)) q := by
    intro R S p q hR h
    rw [List.forall₂_map_left_iff]
    exact h.imp hR
  have e1 := mp (fun l l' h => C266_line hn h) hcb
  have e2 := mp (fun l l' h => C266_line hn h) hcc
  rw [List.map_append, List.map_cons, List.map_append, List.map_cons]
  exact C248_input_partial flt path path' (nb ha) ((bl x).2 hx) (nb hb) ((bl y).2 hy) (mp (fun l l' h => cell_line (by omega) h) hca) e1 e2

/-- C266 is violated with four blanks for a tab: a continuation line that starts with the tab is no continuation line any more, and the
    material loses its nuclides without any message. -/
theorem C266_few_violated : Typed p!"\t8016 1" p!"     8016 1" ∧
    readMaterialLines (fun s => pyInt s) 1 [p!"m1 1001 2", p!"     8016 1"] = .ok ⟨1, [(p!"1001", 2), (p!"8016", 1)], [], 2, [], []⟩ ∧
    readMaterialLines (fun s => pyInt s) 1 ([p!"m1 1001 2", p!"\t8016 1"].map (fun l => replaceTabWithSpace l 4)) =
      .ok ⟨1, [(p!"1001", 2)], [], 1, [], []⟩ := by
  refine ⟨.cont (.inl ⟨0, p!"8016 1", rfl⟩) (by decide) (sameWords_iff.2 (by decide +kernel)), by decide +kernel, by decide +kernel⟩

example : List.Forall₂ Typed [p!"m1\t1001 2", p!"\t8016\t1", []] [p!"m1 1001 2", p!"       8016  1", []] :=
  .cons (.card (w := p!"m1") (r := p!"\t1001 2") (r' := p!" 1001 2") ⟨by decide, by decide⟩ (.inr ⟨.inr rfl, rfl⟩) (sameWords_iff.2 (by decide +kernel)))
    (.cons (.cont (.inl ⟨0, p!"8016\t1", rfl⟩) (by decide) (sameWords_iff.2 (by decide +kernel))) (.cons .empty .nil))

end Props
