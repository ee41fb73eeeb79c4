/- Properties C78-C84, C90-C92, C15: cards of MCNP input files (mcnp_input_reader.py). -/
import Verif.Proofs.McnpInput
import Verif.Props.OutputUtilities

set_option linter.unusedSectionVars false
set_option linter.unusedSimpArgs false

namespace Props
open Py NeutUtilities McnpInput Spec.Mcnp
variable {F : Type}

/-! ### C78 -/

private def blankIdx (e : Str × Nat) : Option Nat := if strip e.1 == [] then some e.2 else none

private theorem blankIdx_none {a : List Str} (h : ∀ l ∈ a, ¬ Spec.Blank l) (k : Nat) :
    (a.zipIdx k).filterMap blankIdx = [] := by
  rw [List.filterMap_eq_nil_iff]
  intro e he
  have hm := List.mem_of_getElem? (List.mk_mem_zipIdx_iff_le_and_getElem?_sub.1 he).2
  have : strip e.1 ≠ [] := fun h0 => h e.1 hm (strip_eq_nil_iff.1 h0)
  simp [blankIdx, this]

private theorem blankIdx_split {a rest : List Str} {x : Str} (h : ∀ l ∈ a, ¬ Spec.Blank l) (hx : Spec.Blank x) (k : Nat) :
    ((a ++ x :: rest).zipIdx k).filterMap blankIdx =
      (k + a.length) :: (rest.zipIdx (k + a.length + 1)).filterMap blankIdx := by
  rw [List.zipIdx_append, List.filterMap_append, blankIdx_none h, List.nil_append, List.zipIdx_cons, List.filterMap_cons]
  have : strip x = [] := strip_eq_nil_iff.2 hx
  simp [blankIdx, this]

private theorem blank_cases (lines : List Str) : (∀ l ∈ lines, ¬ Spec.Blank l) ∨
    ∃ a x rest, lines = a ++ x :: rest ∧ (∀ l ∈ a, ¬ Spec.Blank l) ∧ Spec.Blank x := by
  induction lines with
  | nil => left; simp
  | cons l ls ih =>
    by_cases hl : Spec.Blank l
    · exact .inr ⟨[], l, ls, rfl, by simp, hl⟩
    · rcases ih with h | ⟨a, x, rest, rfl, h1, h2⟩
      · left; simp only [List.mem_cons, forall_eq_or_imp]; exact ⟨hl, h⟩
      · right
        refine ⟨l :: a, x, rest, rfl, ?_, h2⟩
        simp only [List.mem_cons, forall_eq_or_imp]; exact ⟨hl, h1⟩

private theorem findBlankLines_eq (lines : List Str) :
    findBlankLines lines = ((lines.zipIdx.filterMap blankIdx).length,
      (lines.zipIdx.filterMap blankIdx).zipIdx.map (fun e => (e.2 + 1, e.1))) := rfl

private theorem splitBlocs_two {a b c : List Str} {x y : Str} (ha : ∀ l ∈ a, ¬ Spec.Blank l) (hx : Spec.Blank x)
    (hb : ∀ l ∈ b, ¬ Spec.Blank l) (hy : Spec.Blank y) :
    splitBlocs (a ++ x :: (b ++ y :: c)) = .ok (a, x :: b, y :: c) := by
  unfold splitBlocs
  rw [findBlankLines_eq, blankIdx_split ha hx, blankIdx_split hb hy]
  simp only [Nat.zero_add, List.zipIdx_cons, List.map_cons]
  simp only [Dict.get, List.find?_cons, orErr]
  have e1 : (a ++ x :: (b ++ y :: c)).take a.length = a := by simp
  have e2 : slice (a ++ x :: (b ++ y :: c)) a.length (a.length + 1 + b.length) = x :: b := by
    unfold slice
    rw [List.drop_take]
    have : a.length + 1 + b.length - a.length = (x :: b).length := by simp; omega
    rw [this]
    simp
  have e3 : (a ++ x :: (b ++ y :: c)).drop (a.length + 1 + b.length) = y :: c := by
    rw [← List.cons_append, ← List.append_assoc, List.drop_left']
    simp; omega
  simp [bind, Except.bind, pure, Except.pure, e1, e2, e3]

/-- C78: the blocks of a file with two blank lines: they make up the file, the first has no blank line, the second and third
    start with the first and second blank lines. -/
theorem C78_blocks (lines cells surfs data : List Str) :
    splitBlocs lines = .ok (cells, surfs, data) ↔
      lines = cells ++ surfs ++ data ∧ (∀ l ∈ cells, ¬ Spec.Blank l) ∧
      (∃ x s, surfs = x :: s ∧ Spec.Blank x ∧ ∀ l ∈ s, ¬ Spec.Blank l) ∧ ∃ y d, data = y :: d ∧ Spec.Blank y := by
  constructor
  · intro h
    rcases blank_cases lines with h1 | ⟨a, x, rest, rfl, ha, hx⟩
    · exfalso
      unfold splitBlocs at h
      rw [findBlankLines_eq, blankIdx_none h1] at h
      simp [Dict.get, orErr, bind, Except.bind] at h
    · rcases blank_cases rest with h2 | ⟨b, y, c, rfl, hb, hy⟩
      · exfalso
        unfold splitBlocs at h
        rw [findBlankLines_eq, blankIdx_split ha hx, blankIdx_none h2] at h
        simp [Dict.get, orErr, bind, Except.bind] at h
      · rw [splitBlocs_two ha hx hb hy] at h
        simp only [Except.ok.injEq, Prod.mk.injEq] at h
        obtain ⟨rfl, rfl, rfl⟩ := h
        exact ⟨by simp, ha, ⟨x, b, rfl, hx, hb⟩, y, c, rfl, hy⟩
  · rintro ⟨rfl, ha, ⟨x, b, rfl, hx, hb⟩, y, c, rfl, hy⟩
    rw [← splitBlocs_two ha hx hb hy]
    congr 1
    simp

/-- C78: KeyError exactly when there are not two blank lines. -/
theorem C78_error (lines : List Str) (e : Err) : splitBlocs lines = .error e ↔
    e = .KeyError ∧ ¬ ∃ a x b y c, lines = a ++ x :: (b ++ y :: c) ∧ Spec.Blank x ∧ Spec.Blank y := by
  rcases blank_cases lines with h1 | ⟨a, x, rest, rfl, ha, hx⟩
  · have : splitBlocs lines = .error .KeyError := by
      unfold splitBlocs
      rw [findBlankLines_eq, blankIdx_none h1]
      simp [Dict.get, orErr, bind, Except.bind]
    rw [this]
    constructor
    · intro h
      simp only [Except.error.injEq] at h
      refine ⟨h.symm, ?_⟩
      rintro ⟨a, x, b, y, c, rfl, hx, _⟩
      exact h1 x (by simp) hx
    · rintro ⟨rfl, _⟩; rfl
  · rcases blank_cases rest with h2 | ⟨b, y, c, rfl, hb, hy⟩
    · have : splitBlocs (a ++ x :: rest) = .error .KeyError := by
        unfold splitBlocs
        rw [findBlankLines_eq, blankIdx_split ha hx, blankIdx_none h2]
        simp [Dict.get, orErr, bind, Except.bind]
      rw [this]
      constructor
      · intro h
        simp only [Except.error.injEq] at h
        refine ⟨h.symm, ?_⟩
        rintro ⟨a', x', b', y', c', he, hx', hy'⟩
        rcases List.append_eq_append_iff.1 he with ⟨t, h3, h4⟩ | ⟨t, h3, h4⟩
        · cases t with
          | nil =>
            simp only [List.nil_append, List.cons.injEq] at h4
            exact h2 y' (by rw [h4.2]; simp) hy'
          | cons z zs =>
            simp only [List.cons_append, List.cons.injEq] at h4
            exact h2 x' (by rw [h4.2]; simp) hx'
        · cases t with
          | nil =>
            simp only [List.nil_append, List.cons.injEq] at h4
            exact h2 y' (by rw [← h4.2]; simp) hy'
          | cons z zs =>
            simp only [List.cons_append, List.cons.injEq] at h4
            exact ha x' (by rw [h3, h4.1]; simp) hx'
      · rintro ⟨rfl, _⟩; rfl
    · rw [splitBlocs_two ha hx hb hy]
      constructor
      · intro h; simp at h
      · rintro ⟨_, h⟩; exact absurd ⟨a, x, b, y, c, rfl, hx, hy⟩ h

example : splitBlocs [p!"1 0 -1", p!"", p!"1 so 5", p!"  ", p!"mode n", p!"", p!"rest"] =
    .ok ([p!"1 0 -1"], [p!"", p!"1 so 5"], [p!"  ", p!"mode n", p!"", p!"rest"]) := by decide
example : splitBlocs [p!"1 0 -1", p!"", p!"1 so 5"] = .error .KeyError := by decide

/-! ### C79 -/

/-- A line that is no comment line and has no inline comment. -/
def NoComment (l : Str) : Prop := ¬ Comment l ∧ ¬ p!" $" <:+: l

private theorem longLine_key (lines : List Str) : ∃ L : List Nat, L.Pairwise (· < ·) ∧
    (∀ i, i ∈ L ↔ ∃ l, lines[i]? = some l ∧ 80 ≤ l.length ∧ NoComment l) ∧
    longLineIndex lines = if L = [] then none else some L := by
  refine ⟨lines.zipIdx.filterMap (fun e =>
    if e.1.length > 79 then
      if startsWith (lower e.1) p!"c " then none
      else if hasSub p!" $" e.1 then none
      else some e.2
    else none), ?_, ?_, ?_⟩
  · rw [List.pairwise_filterMap]
    have : ∀ (l : List Str) (k : Nat), (l.zipIdx k).Pairwise (fun a b => a.2 < b.2) := by
      intro l
      induction l with
      | nil => simp
      | cons x xs ih =>
        intro k
        rw [List.zipIdx_cons, List.pairwise_cons]
        refine ⟨?_, ih _⟩
        intro b hb
        have := (List.mk_mem_zipIdx_iff_le_and_getElem?_sub (i := b.2) (x := b.1) |>.1 hb).1
        show k < b.2
        omega
    refine (this lines 0).imp ?_
    intro a b hab i hi j hj
    split_ifs at hi hj ; simp at hi hj
    subst hi hj; exact hab
  · intro i
    rw [List.mem_filterMap]
    constructor
    · rintro ⟨e, he, hi⟩
      rw [List.mem_zipIdx_iff_getElem?] at he
      split_ifs at hi with h1 h2 h3
      simp only [Option.some.injEq] at hi
      subst hi
      refine ⟨e.1, he, by omega, ?_, ?_⟩
      · rw [← comment_iff]; exact h2
      · rw [← hasSub_iff]; exact h3
    · rintro ⟨l, hl, h1, h2, h3⟩
      refine ⟨(l, i), by rw [List.mem_zipIdx_iff_getElem?]; exact hl, ?_⟩
      rw [← comment_iff] at h2
      rw [← hasSub_iff] at h3
      rw [if_pos (show l.length > 79 by omega), if_neg h2, if_neg h3]
  · unfold longLineIndex
    simp only [List.length_eq_zero_iff]

/-- C79: the code reports the lines of 80 characters or more. -/
theorem C79_reports_from_80 (lines : List Str) :
    (longLineIndex lines = none ↔ ∀ l ∈ lines, ¬ (80 ≤ l.length ∧ NoComment l)) ∧
    ∀ L, longLineIndex lines = some L → L.Pairwise (· < ·) ∧
      ∀ i, i ∈ L ↔ ∃ l, lines[i]? = some l ∧ 80 ≤ l.length ∧ NoComment l := by
  obtain ⟨L, h1, h2, h3⟩ := longLine_key lines
  constructor
  · rw [h3]
    constructor
    · intro h l hl hq
      split at h
      · rename_i h0
        obtain ⟨i, hi⟩ := List.mem_iff_getElem?.1 hl
        have := (h2 i).2 ⟨l, hi, hq⟩
        rw [h0] at this; simp at this
      · simp at h
    · intro h
      rw [if_pos]
      rw [List.eq_nil_iff_forall_not_mem]
      intro i hi
      obtain ⟨l, hl, hq⟩ := (h2 i).1 hi
      exact h l (List.mem_of_getElem? hl) hq
  · intro L' hL'
    rw [h3] at hL'
    split at hL'
    · simp at hL'
    · simp only [Option.some.injEq] at hL'; subst hL'; exact ⟨h1, h2⟩

/-- C79 (part that holds): correct when no line has exactly 80 characters. -/
theorem C79_long_lines_partial (lines : List Str) (h80 : ∀ l ∈ lines, l.length ≠ 80) :
    (longLineIndex lines = none ↔ ∀ l ∈ lines, ¬ (80 < l.length ∧ NoComment l)) ∧
    ∀ L, longLineIndex lines = some L → L.Pairwise (· < ·) ∧
      ∀ i, i ∈ L ↔ ∃ l, lines[i]? = some l ∧ 80 < l.length ∧ NoComment l := by
  have key : ∀ l ∈ lines, (80 ≤ l.length ↔ 80 < l.length) := by
    intro l hl; have := h80 l hl; omega
  obtain ⟨h1, h2⟩ := C79_reports_from_80 lines
  refine ⟨h1.trans ⟨fun h l hl => by rw [← key l hl]; exact h l hl, fun h l hl => by rw [key l hl]; exact h l hl⟩, ?_⟩
  intro L hL
  refine ⟨(h2 L hL).1, fun i => ((h2 L hL).2 i).trans ⟨?_, ?_⟩⟩
  · rintro ⟨l, hl, hq, hn⟩; exact ⟨l, hl, (key l (List.mem_of_getElem? hl)).1 hq, hn⟩
  · rintro ⟨l, hl, hq, hn⟩; exact ⟨l, hl, (key l (List.mem_of_getElem? hl)).2 hq, hn⟩

/-- C79 is violated by a line of exactly 80 characters, which is reported. -/
theorem C79_violated : longLineIndex [List.replicate 80 'x'] = some [0] ∧ ¬ 80 < (List.replicate 80 'x').length := by
  constructor
  · decide
  · simp

example : longLineIndex [List.replicate 81 'x', p!"short", 'C' :: ' ' :: List.replicate 90 'y', List.replicate 90 'z'] =
    some [0, 3] := by decide

/-! ### C80 -/

/-- C80: the code before an inline comment. -/
theorem C80_inline (l : Str) :
    '$' ∉ removeInlineComment l ∧
    ('$' ∉ l → removeInlineComment l = l) ∧
    (∀ a b, l = a ++ '$' :: b → '$' ∉ a → removeInlineComment l = a) := by
  rw [removeInlineComment_eq]
  unfold code
  refine ⟨?_, ?_, ?_⟩
  · intro h; have := List.mem_takeWhile_imp h; simp at this
  · intro h
    rw [List.takeWhile_eq_self_iff]
    intro c hc
    simp only [ne_eq, decide_not, Bool.not_eq_eq_eq_not, Bool.not_true, decide_eq_false_iff_not]
    rintro rfl; exact h hc
  · rintro a b rfl h
    rw [List.takeWhile_append_of_pos]
    · simp
    · intro c hc
      simp only [ne_eq, decide_not, Bool.not_eq_eq_eq_not, Bool.not_true, decide_eq_false_iff_not]
      rintro rfl; exact h hc

/-- C80: the inline comment is the text between the first and the second '$' (or the end); without '$' the line itself is
    returned. -/
theorem C80_inline_comment (l : Str) :
    (hasInlineComment l = true ↔ '$' ∈ l) ∧ ('$' ∉ l → getInlineComment l = .ok l) ∧
    (∀ a b c, l = a ++ '$' :: b → '$' ∉ a → FirstPiece '$' b c → getInlineComment l = .ok c) := by
  have hi : hasInlineComment l = true ↔ '$' ∈ l := hasSub_singleton
  refine ⟨hi, ?_, ?_⟩
  · intro h
    unfold getInlineComment
    rw [if_neg (by rw [hi]; exact h)]
  · rintro a b c rfl ha hc
    unfold getInlineComment
    rw [if_pos (by rw [hi]; simp), orErr_ok_iff, splitOn_one]
    exact ⟨a, b, rfl, ha, hc⟩

private theorem get_cons {K V : Type} [DecidableEq K] (k i : K) (v : V) (d : Dict K V) :
    Dict.get ((k, v) :: d) i = if k = i then some v else Dict.get d i := by
  unfold Dict.get
  rw [List.find?_cons]
  by_cases h : k = i
  · simp [h]
  · simp [h]

/-- C80: full line comments by line index. -/
theorem C80_full_line (lines : List Str) (i : Nat) (l : Str) :
    (getFullLineComments lines).get i = some l ↔ lines[i]? = some l ∧ Comment l := by
  have key : ∀ (ls : List Str) (k : Nat),
      Dict.get ((ls.zipIdx k).filterMap (fun e => if startsWith (lower e.1) p!"c " then some (e.2, e.1) else none)) i = some l ↔
      k ≤ i ∧ ls[i - k]? = some l ∧ Comment l := by
    intro ls
    induction ls with
    | nil => intro k; simp [Dict.get]
    | cons x xs ih =>
      intro k
      rw [List.zipIdx_cons, List.filterMap_cons]
      have hrec : (k + 1 ≤ i ∧ xs[i - (k + 1)]? = some l ∧ Comment l) ↔ (i ≠ k ∧ k ≤ i ∧ (x :: xs)[i - k]? = some l ∧ Comment l) := by
        constructor
        · rintro ⟨h1, h2, h3⟩
          refine ⟨by omega, by omega, ?_, h3⟩
          rw [show i - k = (i - (k + 1)) + 1 from by omega]; simpa using h2
        · rintro ⟨h1, h2, h3, h4⟩
          refine ⟨by omega, ?_, h4⟩
          rw [show i - k = (i - (k + 1)) + 1 from by omega] at h3; simpa using h3
      by_cases hx : Comment x
      · rw [if_pos (comment_iff.2 hx)]
        simp only [get_cons]
        by_cases hik : i = k
        · subst hik
          rw [if_pos rfl]
          simp only [Nat.sub_self, List.getElem?_cons_zero]
          constructor
          · intro h; have h' := Option.some.inj h; subst h'; exact ⟨le_refl _, rfl, hx⟩
          · rintro ⟨_, h, _⟩; exact h
        · rw [if_neg (Ne.symm hik), ih (k + 1), hrec]
          exact ⟨fun h => h.2, fun h => ⟨hik, h⟩⟩
      · rw [if_neg (fun h => hx (comment_iff.1 h)), ih (k + 1), hrec]
        constructor
        · exact fun h => h.2
        · rintro ⟨h1, h2, h3⟩
          refine ⟨?_, h1, h2, h3⟩
          rintro rfl
          simp only [Nat.sub_self, List.getElem?_cons_zero, Option.some.injEq] at h2
          subst h2; exact hx h3
  have := key lines 0
  simp only [Nat.zero_le, Nat.sub_zero, true_and] at this
  exact this

example : removeInlineComment p!"m1 1001 $ note $ x" = p!"m1 1001 " := by decide
example : getInlineComment p!"m1 1001 $ note $ x" = .ok p!" note " := by decide
example : getFullLineComments [p!"C one", p!"x", p!"c two", p!"cell"] = [(0, p!"C one"), (2, p!"c two")] := by decide

/-! ### C81 -/

/-- C81: the lines of a card. -/
theorem C81_card_lines (lines : List Str) (card first : Str) (body : List Str) (hne : card ≠ []) (hb : card.head? ≠ some ' ')
    (h : Card (CardHead card) lines first body) : getCardLines lines card = cardText first body :=
  scan_card (cardStart_good hne hb) (fun _ => cardStart_iff) h

/-- C81: nothing is returned exactly when the card is absent. -/
theorem C81_absent (lines : List Str) (card : Str) (hne : card ≠ []) (hb : card.head? ≠ some ' ') :
    getCardLines lines card = [] ↔ ∀ l ∈ lines, ¬ CardHead card l := by
  constructor
  · intro h
    rcases card_cases (CardHead card) lines with h' | ⟨first, body, hc⟩
    · exact h'
    · rw [C81_card_lines lines card first body hne hb hc] at h
      simp [cardText] at h
  · exact scan_absent (fun _ => cardStart_iff)

/-- C81: these two cases are all. -/
theorem C81_cases (lines : List Str) (card : Str) :
    (∀ l ∈ lines, ¬ CardHead card l) ∨ ∃ first body, Card (CardHead card) lines first body := card_cases _ _

example : getCardLines [p!"c sdef x", p!"SDEF pos 0 $ a", p!"c  note", p!"", p!"     ERG 14 $ b", p!"mode n", p!"     tail"]
    p!"sdef" = [p!"sdef pos 0 ", p!"     erg 14 "] := by decide
example : getCardLines [p!"sdefx 1"] p!"sdef" = [] := by decide

/-! ### C136 -/

/-- C136 (part that holds): inserting a comment line (letter c and a blank) behind any line of a card does not change the result.
    Missing: comment lines consisting of the letter alone (`C136_bare_comment_violated`). -/
theorem C136_comment_line_partial (pre rest : List Str) (card first cm : Str) (b1 b2 : List Str) (hne : card ≠ [])
    (hb : card.head? ≠ some ' ') (hcm : Comment cm)
    (h : Card (CardHead card) (pre ++ first :: (b1 ++ b2 ++ rest)) first (b1 ++ b2)) (hpre : ∀ l ∈ pre, ¬ CardHead card l)
    (hrest : ∀ l ∈ rest.head?, ¬ (Cont l ∨ Comment l ∨ l = [])) :
    getCardLines (pre ++ first :: (b1 ++ cm :: b2 ++ rest)) card = getCardLines (pre ++ first :: (b1 ++ b2 ++ rest)) card := by
  have hfirst : CardHead card first := by obtain ⟨_, _, _, _, hf, _, _⟩ := h; exact hf
  have hbody : ∀ l ∈ b1 ++ b2, Cont l ∨ Comment l ∨ l = [] := by obtain ⟨_, _, _, _, _, hbd, _⟩ := h; exact hbd
  rw [C81_card_lines _ card first (b1 ++ b2) hne hb h,
    C81_card_lines _ card first (b1 ++ cm :: b2) hne hb ⟨pre, rest, rfl, hpre, hfirst, ?_, hrest⟩]
  · have hnc : ¬ Cont cm := by
      obtain ⟨x, r, rfl, hx⟩ := hcm
      rintro ⟨t, ht⟩
      simp only [List.cons_append, List.cons.injEq] at ht
      rcases hx with rfl | rfl
      · exact absurd ht.1 (by decide)
      · exact absurd ht.1 (by decide)
    unfold cardText
    rw [List.filter_append, List.filter_append, List.filter_cons_of_neg (by simpa using hnc)]
  · intro l hl
    simp only [List.mem_append, List.mem_cons] at hl
    rcases hl with hl | rfl | hl
    · exact hbody l (by simp [hl])
    · exact .inr (.inl hcm)
    · exact hbody l (by simp [hl])

/-- C136 is violated: a comment line with nothing after the letter is not taken as a comment: it ends the card. -/
theorem C136_bare_comment_violated :
    getCardLines [p!"m1 1001 1", p!"c", p!"     8016 1"] p!"m1" = [p!"m1 1001 1"] ∧
    getCardLines [p!"m1 1001 1", p!"     8016 1"] p!"m1" = [p!"m1 1001 1", p!"     8016 1"] := by decide

/-! ### C82 -/

/-- C82: without a mode card the answer is None. -/
theorem C82_mode_none (lines : List Str) : readModeCard lines = none ↔ ∀ l ∈ lines, ¬ CardHead p!"mode" l := by
  rw [← C81_absent lines p!"mode" (by simp) (by decide)]
  unfold readModeCard
  simp only [List.length_eq_zero_iff]
  split
  · rename_i h; simp [h]
  · rename_i h; simp [h]

/-- C82: the designators are the words of the card (over all its lines) after the first word; `f` gives the words of a text. -/
theorem C82_mode (lines : List Str) (first : Str) (body : List Str) (f : Str → List Str) (hf : ∀ s, Spec.IsWords s (f s))
    (h : Card (CardHead p!"mode") lines first body) :
    readModeCard lines = some (((cardText first body).flatMap f).drop 1) := by
  have hf' : f = splitWs := by funext s; exact (splitWs_of_isWords (hf s)).symm
  subst hf'
  unfold readModeCard
  rw [C81_card_lines lines _ first body (by simp) (by decide) h]
  have : (cardText first body).length ≠ 0 := by simp [cardText]
  simp only [this, if_false, splitOn_stringCleaner_drop _ 1 (by decide), splitWs_join_lines]

/-- C82: that first word is the card name when it is followed by a blank. -/
theorem C82_mode_blank (lines : List Str) (rest : Str) (body : List Str) (f : Str → List Str) (hf : ∀ s, Spec.IsWords s (f s))
    (h : Card (CardHead p!"mode") lines (p!"mode " ++ rest) body) :
    readModeCard lines = some (f (lower (code rest)) ++ (cardText rest body).tail.flatMap f) := by
  rw [C82_mode lines _ body f hf h]
  have hf' : f = splitWs := by funext s; exact (splitWs_of_isWords (hf s)).symm
  subst hf'
  congr 1

/-- C82: validity of a list of designators. -/
theorem C82_valid (mode : List Str) :
    isModeValid mode = true ↔ ∀ p ∈ mode, lower p ∈ [p!"n", p!"p", p!"h", p!"e", p!"|", p!"q", p!"u", p!"v", p!"!"] := by
  unfold isModeValid
  simp only [List.all_eq_true, List.contains_iff_mem]

example : readModeCard [p!"x", p!"MODE  N P $ both", p!"     E"] = some [p!"n", p!"p", p!"e"] := by decide
example : isModeValid [p!"N", p!"p", p!"|"] = true := by decide
example : isModeValid [p!"n", p!"z"] = false := by decide

end Props
