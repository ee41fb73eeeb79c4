/-
C248: blanks between the words of MCNP cards.
-/
import Verif.Props.LetterCase
import Verif.Props.McnpInput
import Verif.Spec.Common

namespace Props
open Py NeutUtilities McnpInput Spec Spec.Mcnp
variable {F : Type}

/-- Two texts with the same words. -/
def SameWords (a b : Str) : Prop := ∃ ws, IsWords a ws ∧ IsWords b ws

/-- Two lines of an input that differ in the number of blanks between words: empty lines, continuation lines, or lines with
    the same first word in column 1, followed by nothing or by a blank in both. -/
inductive Spaced : Str → Str → Prop
  | empty : Spaced [] []
  | cont {l l'} (h : Cont l) (h' : Cont l') (hw : SameWords l l') : Spaced l l'
  | card {w r r'} (hw : IsWord w) (hr : (r = [] ∧ r' = []) ∨ (r.head? = some ' ' ∧ r'.head? = some ' '))
      (hs : SameWords r r') : Spaced (w ++ r) (w ++ r')

private theorem sameWords_iff {a b : Str} : SameWords a b ↔ splitWs a = splitWs b := by
  constructor
  · rintro ⟨ws, h1, h2⟩
    rw [isWords_iff.1 h1, isWords_iff.1 h2]
  · intro h
    exact ⟨splitWs b, isWords_iff.2 h, isWords_iff.2 rfl⟩

private theorem spaced_words {l l' : Str} (h : Spaced l l') : splitWs l = splitWs l' := by
  cases h with
  | empty => rfl
  | cont _ _ h => exact sameWords_iff.1 h
  | @card w r r' hw hr hs =>
    have hd : ∀ r : Str, (r = [] ∨ r.head? = some ' ') → ∀ c ∈ r.head?, isSpace c = true := by
      rintro r (rfl | h) c hc
      · simp at hc
      · rw [h] at hc
        simp only [Option.mem_def, Option.some.injEq] at hc
        rw [← hc]; rfl
    rw [splitWs_word_append hw.1 hw.2 (hd r (by tauto)), splitWs_word_append hw.1 hw.2 (hd r' (by tauto)), sameWords_iff.1 hs]

/-- A text without blanks at the start of one line is at the start of the other, followed by the same character. -/
private theorem head_transfer {p t w r r' : Str} (hp : ∀ c ∈ p, isSpace c = false)
    (hr : (r = [] ∧ r' = []) ∨ (r.head? = some ' ' ∧ r'.head? = some ' ')) (h : w ++ r = p ++ t) :
    ∃ t', w ++ r' = p ++ t' ∧ t'.head? = t.head? := by
  have hh : r'.head? = r.head? := by
    rcases hr with ⟨rfl, rfl⟩ | ⟨h1, h2⟩
    · rfl
    · rw [h1, h2]
  rcases List.append_eq_append_iff.1 h with ⟨a, ha, hb⟩ | ⟨a, ha, hb⟩
  · have : a = [] := by
      cases a with
      | nil => rfl
      | cons c a =>
        exfalso
        have hc : isSpace c = false := hp c (by rw [ha]; simp)
        rcases hr with ⟨rfl, -⟩ | ⟨h1, -⟩
        · simp at hb
        · rw [hb] at h1
          simp only [List.cons_append, List.head?_cons, Option.some.injEq] at h1
          subst h1
          exact absurd hc (by decide)
    subst this
    simp only [List.append_nil, List.nil_append] at ha hb
    exact ⟨r', by rw [ha], by rw [← hb, hh]⟩
  · refine ⟨a ++ r', by rw [ha, List.append_assoc], ?_⟩
    rw [hb]
    cases a with
    | nil => exact hh
    | cons c a => rfl

private theorem rest_symm {r r' : Str} (hr : (r = [] ∧ r' = []) ∨ (r.head? = some ' ' ∧ r'.head? = some ' ')) :
    (r' = [] ∧ r = []) ∨ (r'.head? = some ' ' ∧ r.head? = some ' ') := by tauto

private theorem spaced_symm {l l' : Str} (h : Spaced l l') : Spaced l' l := by
  cases h with
  | empty => exact .empty
  | cont h h' hw => exact .cont h' h (by obtain ⟨ws, a, b⟩ := hw; exact ⟨ws, b, a⟩)
  | card hw hr hs => exact .card hw (rest_symm hr) (by obtain ⟨ws, a, b⟩ := hs; exact ⟨ws, b, a⟩)

/-- A property of the start of a line that is carried from one line to the other. -/
private theorem head_spaced {l l' p t : Str} (h : Spaced l l') (hp : ∀ c ∈ p, isSpace c = false) (hne : p ≠ [])
    (hl : l = p ++ t) : ∃ t', l' = p ++ t' ∧ t'.head? = t.head? := by
  cases h with
  | empty =>
    exfalso
    cases p with
    | nil => exact hne rfl
    | cons c p => simp at hl
  | cont h h' hw =>
    exfalso
    obtain ⟨u, hu⟩ := cont_cons h
    cases p with
    | nil => exact hne rfl
    | cons c p =>
      rw [hu] at hl
      simp only [List.cons_append, List.cons.injEq] at hl
      have := hp c (by simp)
      rw [← hl.1] at this
      exact absurd this (by decide)
  | card hw hr hs => exact head_transfer hp hr hl

private theorem cardHead_spaced {card : Str} (hc : ∀ c ∈ card, isSpace c = false) (hne : card ≠ []) {l l' : Str}
    (h : Spaced l l') (hl : CardHead card l) : CardHead card l' := by
  obtain ⟨name, c, rest, hl, hn, hcc⟩ := hl
  have hp : ∀ c ∈ name, isSpace c = false := by
    intro d hd
    have hm : d.toLower ∈ lower card := by rw [← hn]; exact List.mem_map_of_mem hd
    obtain ⟨e, he, hee⟩ := List.mem_map.1 hm
    rw [← isSpace_toLower, ← hee, isSpace_toLower]
    exact hc e he
  have hne' : name ≠ [] := by
    rintro rfl
    apply hne
    rw [← lower_eq_nil, ← hn]
    rfl
  obtain ⟨t', h1, h2⟩ := head_spaced h hp hne' hl
  cases t' with
  | nil => simp at h2
  | cons d t' =>
    simp only [List.head?_cons, Option.some.injEq] at h2
    subst h2
    exact ⟨name, d, t', h1, hn, hcc⟩

private theorem natStr_no_space (n : Nat) : ∀ c ∈ natStr n, isSpace c = false :=
  fun _ hc => isDigit_not_space (natStr_isDigit hc)

private theorem matHead_spaced {n : Nat} {l l' : Str} (h : Spaced l l') (hl : MatHead n l) : MatHead n l' := by
  obtain ⟨x, rest, hl, hx, hr⟩ := hl
  have hp : ∀ c ∈ x :: natStr n, isSpace c = false := by
    intro c hc
    rcases List.mem_cons.1 hc with rfl | hc
    · rcases hx with rfl | rfl <;> rfl
    · exact natStr_no_space n c hc
  obtain ⟨t', h1, h2⟩ := head_spaced h hp (by simp) (t := rest) (by simpa using hl)
  refine ⟨x, t', by simpa using h1, hx, ?_⟩
  rcases hr with rfl | hr
  · left
    cases t' with
    | nil => rfl
    | cons => simp at h2
  · right; rw [h2, hr]

private theorem talHead_spaced {n : Nat} {l l' : Str} (h : Spaced l l') (hl : TalHead n l) : TalHead n l' := by
  obtain ⟨x, rest, hl, hx, hr⟩ := hl
  have hp : ∀ c ∈ x :: natStr n, isSpace c = false := by
    intro c hc
    rcases List.mem_cons.1 hc with rfl | hc
    · rcases hx with rfl | rfl <;> rfl
    · exact natStr_no_space n c hc
  obtain ⟨t', h1, h2⟩ := head_spaced h hp (by simp) (t := rest) (by simpa using hl)
  refine ⟨x, t', by simpa using h1, hx, ?_⟩
  rcases hr with rfl | hr | hr
  · left
    cases t' with
    | nil => rfl
    | cons => simp at h2
  · right; left; rw [h2, hr]
  · right; right; rw [h2, hr]

private theorem bool_both {a b : Bool} (h1 : a = true → b = true) (h2 : b = true → a = true) : a = b := by
  rw [Bool.eq_iff_iff]; exact ⟨h1, h2⟩

private theorem comment_spaced {l l' : Str} (h : Spaced l l') (hl : Comment l) : Comment l' := by
  obtain ⟨x, rest, hl, hx⟩ := hl
  obtain ⟨t', h1, h2⟩ := head_spaced h (p := [x]) (by
    intro c hc
    simp only [List.mem_cons, List.not_mem_nil, or_false] at hc
    subst hc
    rcases hx with rfl | rfl <;> rfl) (by simp) (t := ' ' :: rest) (by simpa using hl)
  cases t' with
  | nil => simp at h2
  | cons d t' =>
    simp only [List.head?_cons, Option.some.injEq] at h2
    subst h2
    exact ⟨x, t', by simpa using h1, hx⟩

private theorem cont_spaced {l l' : Str} (h : Spaced l l') (hl : Cont l) : Cont l' := by
  cases h with
  | empty => exact hl
  | cont _ h' _ => exact h'
  | @card w r r' hw hr hs =>
    exfalso
    obtain ⟨u, hu⟩ := cont_cons hl
    obtain ⟨c, w', rfl⟩ := List.exists_cons_of_ne_nil hw.1
    simp only [List.cons_append, List.cons.injEq] at hu
    have := hw.2 c (by simp)
    rw [hu.1] at this
    exact absurd this (by decide)

private theorem nil_spaced {l l' : Str} (h : Spaced l l') (hl : l = []) : l' = [] := by
  cases h with
  | empty => rfl
  | cont h _ _ => subst hl; obtain ⟨u, hu⟩ := cont_cons h; simp at hu
  | card hw hr hs =>
    exfalso
    exact hw.1 (List.append_eq_nil_iff.1 hl).1

/-! ### The words before a comment -/

/-- The words up to the first `$`. -/
private def cutWords : List Str → List Str
  | [] => []
  | w :: ws => if '$' ∈ w then (if code w = [] then [] else [code w]) else w :: cutWords ws

private theorem code_append_of_mem {a b : Str} (h : '$' ∈ a) : code (a ++ b) = code a := by
  unfold code
  induction a with
  | nil => simp at h
  | cons c a ih =>
    by_cases hc : c = '$'
    · subst hc; rfl
    · have h' : '$' ∈ a := by
        rcases List.mem_cons.1 h with h | h
        · exact absurd h.symm hc
        · exact h
      rw [List.cons_append, List.takeWhile_cons_of_pos (by simpa using hc), List.takeWhile_cons_of_pos (by simpa using hc), ih h']

private theorem code_append_of_not_mem {a b : Str} (h : '$' ∉ a) : code (a ++ b) = a ++ code b := by
  unfold code
  induction a with
  | nil => rfl
  | cons c a ih =>
    have hc : c ≠ '$' := by rintro rfl; exact h (by simp)
    rw [List.cons_append, List.takeWhile_cons_of_pos (by simpa using hc), ih (fun h' => h (List.mem_cons_of_mem _ h'))]
    rfl

private theorem code_self {a : Str} (h : '$' ∉ a) : code a = a := by
  have := code_append_of_not_mem (b := []) h
  simpa [code] using this

private theorem mem_code {a : Str} {c : Char} (h : c ∈ code a) : c ∈ a := by
  unfold code at h
  exact (List.takeWhile_sublist _).subset h

private theorem splitWs_code {s : Str} {ws : List Str} (h : IsWords s ws) : splitWs (code s) = cutWords ws := by
  induction h with
  | @blank s h =>
    have hb : Blank (code s) := fun c hc => h c (mem_code hc)
    exact isWords_iff.1 (.blank hb)
  | @word pre w rest ws hp hw hr _ ih =>
    have hpd : '$' ∉ pre := by
      intro hm
      exact absurd (hp _ hm) (by decide)
    rw [List.append_assoc, code_append_of_not_mem hpd]
    have strip_pre : ∀ t : Str, splitWs (pre ++ t) = splitWs t := by
      intro t
      clear ih hpd
      induction pre with
      | nil => rfl
      | cons c pre ih' =>
        have hc := hp c (by simp)
        have := splitWs_append_space hc [] (pre ++ t)
        simp only [List.nil_append] at this
        rw [List.cons_append, this, ih' (fun c hc => hp c (List.mem_cons_of_mem _ hc))]
        rfl
    rw [strip_pre]
    by_cases hd : '$' ∈ w
    · rw [code_append_of_mem hd, cutWords, if_pos hd]
      by_cases he : code w = []
      · rw [if_pos he, he]; rfl
      · rw [if_neg he]
        have := splitWs_word_append (rest := []) he (fun c hc => hw.2 c (mem_code hc)) (by simp)
        simpa [splitWs, splitP] using this
    · rw [code_append_of_not_mem hd, cutWords, if_neg hd, ← ih]
      apply splitWs_word_append hw.1 hw.2
      intro c hc
      cases rest with
      | nil => simp [code] at hc
      | cons d rest =>
        have hsd := hr d (by simp)
        have hdd : d ≠ '$' := by rintro rfl; exact absurd hsd (by decide)
        unfold code at hc
        rw [List.takeWhile_cons_of_pos (by simpa using hdd)] at hc
        simp only [List.head?_cons, Option.mem_def, Option.some.injEq] at hc
        rw [← hc]; exact hsd

private theorem code_spaced {l l' : Str} (h : Spaced l l') : splitWs (lower (code l)) = splitWs (lower (code l')) := by
  have hw := spaced_words h
  rw [splitWs_lower, splitWs_lower, splitWs_code (isWords_iff.2 rfl), splitWs_code (isWords_iff.2 rfl), hw]

/-! ### Cards -/

private theorem scan_spaced {start : Str → Bool} (g : GoodStart start)
    (hs : ∀ l l', Spaced l l' → start (lower l) = start (lower l')) {a b : List Str} (h : List.Forall₂ Spaced a b) :
    ∀ flag, List.Forall₂ (fun x y => splitWs x = splitWs y) (scan start flag a) (scan start flag b) := by
  induction h with
  | nil => intro flag; cases flag <;> exact .nil
  | @cons l l' a b hl _ ih =>
    have e1 : isContinueLine (lower l) = isContinueLine (lower l') := by
      apply bool_both <;> intro h <;> rw [isContinueLine_iff, cont_lower] at h ⊢
      · exact cont_spaced hl h
      · exact cont_spaced (spaced_symm hl) h
    have e2 : startsWith (lower l) p!"c " = startsWith (lower l') p!"c " := by
      apply bool_both <;> intro h <;> rw [comment_iff] at h ⊢
      · exact comment_spaced hl h
      · exact comment_spaced (spaced_symm hl) h
    have e3 : lower l = [] ↔ lower l' = [] := by
      rw [lower_eq_nil, lower_eq_nil]
      exact ⟨nil_spaced hl, nil_spaced (spaced_symm hl)⟩
    have e4 := hs l l' hl
    have e5 : splitWs (removeInlineComment (lower l)) = splitWs (removeInlineComment (lower l')) := by
      rw [removeInlineComment_eq, removeInlineComment_eq, code_lower, code_lower]
      exact code_spaced hl
    have off : ∀ k, Cont k → start (removeInlineComment (lower k)) = false := by
      intro k hk
      rw [removeInlineComment_eq]
      obtain ⟨t, ht⟩ := cont_cons (code_cont (cont_lower.2 hk))
      rw [ht, g.blank]
    intro flag
    cases flag with
    | false =>
      simp only [scan, e4]
      split_ifs
      · exact .cons e5 (ih _)
      · exact ih _
    | true =>
      by_cases hc : isContinueLine (lower l) = true
      · have hc' := e1 ▸ hc
        have k1 : Cont l := by rw [isContinueLine_iff, cont_lower] at hc; exact hc
        have k2 : Cont l' := by rw [isContinueLine_iff, cont_lower] at hc'; exact hc'
        simp only [scan, hc, hc', if_true, off l k1, off l' k2, Bool.false_eq_true, if_false]
        exact .cons e5 (ih _)
      · have hc : isContinueLine (lower l) = false := by simpa using hc
        have hc' : isContinueLine (lower l') = false := e1 ▸ hc
        simp only [scan, hc, hc', Bool.false_eq_true, if_false, e2, e4, ne_eq, e3]
        split_ifs <;> first | exact .nil | exact ih _ | exact .cons e5 (ih _)

private theorem join_spaced {a b : List Str} (h : List.Forall₂ (fun x y => splitWs x = splitWs y) a b) :
    stringCleaner (join p!" " a) = stringCleaner (join p!" " b) := by
  rw [stringCleaner_eq, stringCleaner_eq, splitWs_join_lines, splitWs_join_lines]
  congr 1
  induction h with
  | nil => rfl
  | cons h _ ih => simp [h, ih]

private theorem card_spaced {card : Str} (hc : ∀ c ∈ card, isSpace c = false) (hne : card ≠ []) {a b : List Str}
    (h : List.Forall₂ Spaced a b) :
    List.Forall₂ (fun x y => splitWs x = splitWs y) (getCardLines a card) (getCardLines b card) := by
  apply scan_spaced (cardStart_good hne ?_) ?_ h
  · intro hh
    have := hc ' ' (List.mem_of_mem_head? hh)
    exact absurd this (by decide)
  · intro l l' hl
    apply bool_both <;> intro h <;> rw [cardStart_iff] at h ⊢
    · exact cardHead_spaced hc hne hl h
    · exact cardHead_spaced hc hne (spaced_symm hl) h

private theorem words_forall {a b : List Str} (h : List.Forall₂ (fun x y => splitWs x = splitWs y) a b) :
    List.Forall₂ SameWords a b := h.imp (fun _ _ h => sameWords_iff.2 h)

/-- C248 (part that holds): the lines of a card have the same words, and the mode card is read the same. Missing: tabs
    (`C248_tab_violated`). -/
theorem C248_card_partial {card : Str} (hc : ∀ c ∈ card, isSpace c = false) (hne : card ≠ []) {a b : List Str}
    (h : List.Forall₂ Spaced a b) :
    List.Forall₂ SameWords (getCardLines a card) (getCardLines b card) ∧ readModeCard a = readModeCard b := by
  refine ⟨words_forall (card_spaced hc hne h), ?_⟩
  have hm := card_spaced (card := p!"mode") (by decide) (by decide) h
  unfold readModeCard
  simp only [hm.length_eq, join_spaced hm]

/-- Materials that are the same up to the blanks in the thermal and mx lines kept as text. -/
def SameMaterial (m m' : Material F) : Prop :=
  m.number = m'.number ∧ m.composition = m'.composition ∧ m.keywords = m'.keywords ∧ m.numNuclides = m'.numNuclides ∧
  List.Forall₂ SameWords m.thermal m'.thermal ∧ List.Forall₂ SameWords m.mx m'.mx

private theorem mtcard_ok (a : Str) (ha : ∀ c ∈ a, isSpace c = false) (hne : a ≠ []) (n : Int) :
    (∀ c ∈ a ++ intStr n, isSpace c = false) ∧ a ++ intStr n ≠ [] := by
  constructor
  · intro c hc
    rcases List.mem_append.1 hc with hc | hc
    · exact ha c hc
    · cases n with
      | ofNat n => exact natStr_no_space n c hc
      | negSucc n =>
        rcases List.mem_cons.1 hc with rfl | hc
        · decide
        · exact natStr_no_space _ c hc
  · intro h0
    exact hne (List.append_eq_nil_iff.1 h0).1

private theorem digit_ne {b d : Char} (hb : isDigit b = true) (hd : isDigit d = false) : b ≠ d := by
  rintro rfl
  rw [hb] at hd
  exact absurd hd (by decide)

private theorem matStart_neg (k : Nat) (l : Str) : matStart (.negSucc k) l = false := by
  unfold matStart
  split
  · rename_i b rest
    by_cases hb : isDigit b = true
    · rw [splitOn_headD, List.takeWhile_cons_of_pos (by decide),
        List.takeWhile_cons_of_pos (by simpa using digit_ne hb (by decide)), List.drop_succ_cons, List.drop_zero, Bool.and_eq_false_iff]
      right
      have := digit_ne hb (d := '-') (by decide)
      simp [intStr, this]
    · simp [hb]
  · rfl

private theorem talStart_neg (k : Nat) (l : Str) : talStart (.negSucc k) l = false := by
  unfold talStart
  split
  · rename_i b rest
    by_cases hb : isDigit b = true
    · rw [splitOn_headD, splitOn_headD, List.takeWhile_cons_of_pos (by decide),
        List.takeWhile_cons_of_pos (by simpa using digit_ne hb (by decide)), List.drop_succ_cons, List.drop_zero,
        List.takeWhile_cons_of_pos (by simpa using digit_ne hb (by decide)), Bool.and_eq_false_iff]
      right
      have := digit_ne hb (d := '-') (by decide)
      simp [intStr, this]
    · simp [hb]
  · rfl

private theorem matStart_spaced (n : Int) {l l' : Str} (hl : Spaced l l') : matStart n (lower l) = matStart n (lower l') := by
  cases n with
  | ofNat n =>
    apply bool_both <;> intro h <;> rw [Int.ofNat_eq_natCast, matStart_iff] at h ⊢
    · exact matHead_spaced hl h
    · exact matHead_spaced (spaced_symm hl) h
  | negSucc k => rw [matStart_neg, matStart_neg]

private theorem talStart_spaced (n : Int) {l l' : Str} (hl : Spaced l l') : talStart n (lower l) = talStart n (lower l') := by
  cases n with
  | ofNat n =>
    apply bool_both <;> intro h <;> rw [Int.ofNat_eq_natCast, talStart_iff] at h ⊢
    · exact talHead_spaced hl h
    · exact talHead_spaced (spaced_symm hl) h
  | negSucc k => rw [talStart_neg, talStart_neg]

/-- C248 (part that holds): a material is read the same however its words are spaced with blanks. Missing: tabs
    (`C248_tab_violated`). -/
theorem C248_material_partial (flt : Str → Option F) (n : Int) {a b : List Str} (h : List.Forall₂ Spaced a b) :
    BothOr SameMaterial (readMaterialLines flt n a) (readMaterialLines flt n b) := by
  have hs := scan_spaced (matStart_good n) (fun _ _ hl => matStart_spaced n hl) h false
  have mt := mtcard_ok p!"mt" (by decide) (by decide) n
  have mx := mtcard_ok p!"mx" (by decide) (by decide) n
  unfold readMaterialLines
  simp only [join_spaced hs]
  exact both_same _ (fun m => .inl ⟨_, _, rfl, rfl, rfl, rfl, rfl, rfl, words_forall (card_spaced mt.1 mt.2 h),
    words_forall (card_spaced mx.1 mx.2 h)⟩)

private theorem present_spaced {p : Str} (q : Str) (hp : ∀ c ∈ p, isSpace c = false) (hne : p ≠ []) (hl : lower p = p)
    (hq : q = [] ∨ q = [' ']) {a b : List Str} (h : List.Forall₂ Spaced a b) :
    isCardPresent a (p ++ q) = isCardPresent b (p ++ q) := by
  have low : lower (p ++ q) = p ++ q := by
    unfold lower at hl ⊢
    rw [List.map_append, hl]
    rcases hq with rfl | rfl <;> rfl
  have one : ∀ l l', Spaced l l' → startsWith (lower l) (p ++ q) = true → startsWith (lower l') (p ++ q) = true := by
    intro l l' hs hst
    rw [startsWith_iff] at hst ⊢
    obtain ⟨t, ht⟩ := hst
    obtain ⟨u, v, rfl, hu, hv⟩ := lower_eq_append (a := p) (b := q ++ t) (by rw [← ht, List.append_assoc])
    have hup : ∀ c ∈ u, isSpace c = false := by
      intro c hc
      rw [← isSpace_toLower]
      exact hp _ (by rw [← hu]; exact List.mem_map_of_mem hc)
    have hune : u ≠ [] := by
      rintro rfl
      exact hne hu.symm
    obtain ⟨t', h1, h2⟩ := head_spaced hs hup hune rfl
    have hlow : lower l' = p ++ lower t' := by rw [h1, ← hu]; simp [lower]
    rw [hlow]
    rcases hq with rfl | rfl
    · exact ⟨lower t', by simp⟩
    · cases v with
      | nil => simp [lower] at hv
      | cons d v =>
        simp only [lower, List.map_cons, List.cons_append, List.nil_append, List.cons.injEq] at hv
        have hd : d = ' ' := (toLower_eq_low (by decide)).1 hv.1
        subst hd
        cases t' with
        | nil => simp at h2
        | cons e t' =>
          simp only [List.head?_cons, Option.some.injEq] at h2
          subst h2
          exact ⟨lower t', by simp [lower]⟩
  unfold isCardPresent
  rw [low]
  induction h with
  | nil => rfl
  | cons hl _ ih =>
    simp only [List.any_cons, ih]
    congr 1
    exact bool_both (one _ _ hl) (one _ _ (spaced_symm hl))

private theorem lower_card_nat (a : Str) (n : Int) (ha : lower a = a) : lower (a ++ intStr n) = a ++ intStr n := by
  have : lower (intStr n) = intStr n := by
    cases n with
    | ofNat n => exact natStr_lower n
    | negSucc n =>
      have := natStr_lower (n + 1)
      unfold lower at this ⊢
      rw [intStr, List.map_cons, this]
      rfl
  unfold lower at this ha ⊢
  rw [List.map_append, ha, this]

/-- C248 (part that holds): a tally is read the same however its words are spaced with blanks, with all its flags. Missing:
    tabs (`C248_tab_violated`). -/
theorem C248_tally_partial (n : Int) {a b : List Str} (h : List.Forall₂ Spaced a b) :
    readTallyLines n a = readTallyLines n b := by
  have hs := scan_spaced (talStart_good n) (fun _ _ hl => talStart_spaced n hl) h false
  have fl : ∀ p : Str, (∀ c ∈ p, isSpace c = false) → p ≠ [] → lower p = p →
      isCardPresent a (p ++ intStr n ++ p!" ") = isCardPresent b (p ++ intStr n ++ p!" ") := by
    intro p h1 h2 h3
    obtain ⟨k1, k2⟩ := mtcard_ok p h1 h2 n
    exact present_spaced p!" " k1 k2 (lower_card_nat p n h3) (.inr rfl) h
  unfold readTallyLines
  simp only [join_spaced hs, fl p!"e" (by decide) (by decide) (by decide), fl p!"t" (by decide) (by decide) (by decide),
    fl p!"fm" (by decide) (by decide) (by decide), fl p!"sd" (by decide) (by decide) (by decide),
    fl p!"fc" (by decide) (by decide) (by decide)]

private theorem letterDigit_spaced (x : Char) {l l' : Str} (h : Spaced l l') (hl : letterDigit x l = true) :
    letterDigit x l' = true := by
  match l, hl with
  | c :: d :: rest, hl =>
    unfold letterDigit at hl
    rw [Bool.and_eq_true] at hl
    have hd : isSpace d = false := isDigit_not_space hl.2
    have hc : isSpace c = false := by
      generalize hk : c :: d :: rest = k at h
      cases h with
      | empty => simp at hk
      | cont h _ _ =>
        obtain ⟨t, rfl⟩ := h
        simp only [List.cons_append, List.cons.injEq] at hk
        rw [hk.2.1] at hd
        exact absurd hd (by decide)
      | @card w r r' hw hr hs =>
        obtain ⟨e, w', rfl⟩ := List.exists_cons_of_ne_nil hw.1
        simp only [List.cons_append, List.cons.injEq] at hk
        rw [hk.1]
        exact hw.2 e (by simp)
    obtain ⟨t', h1, -⟩ := head_spaced h (p := [c, d]) (by
      intro e he
      simp only [List.mem_cons, List.not_mem_nil, or_false] at he
      rcases he with rfl | rfl
      · exact hc
      · exact hd) (by simp) (t := rest) rfl
    rw [h1]
    show ((c.toLower == x) && isDigit d) = true
    rw [Bool.and_eq_true]
    exact hl

private theorem nums_spaced (x : Char) (f : Str → Except Err Int) (hf : ∀ l l', splitWs l = splitWs l' → f l = f l')
    {a b : List Str} (h : List.Forall₂ Spaced a b) :
    (a.filter (letterDigit x)).mapM f = (b.filter (letterDigit x)).mapM f := by
  induction h with
  | nil => rfl
  | @cons l l' a b hl _ ih =>
    have e : letterDigit x l = letterDigit x l' := bool_both (letterDigit_spaced x hl) (letterDigit_spaced x (spaced_symm hl))
    simp only [List.filter_cons, e]
    split_ifs
    · rw [List.mapM_cons, List.mapM_cons, hf l l' (spaced_words hl), ih]
    · exact ih

/-- C248 (part that holds): the numbers of materials and tallies are listed the same. Missing: tabs (`C248_tab_violated`). -/
theorem C248_numbers_partial {a b : List Str} (h : List.Forall₂ Spaced a b) :
    getMaterialNumbers a = getMaterialNumbers b ∧ getTallyNumbers a = getTallyNumbers b := by
  have hc : ∀ l l' : Str, splitWs l = splitWs l' → stringCleaner l = stringCleaner l' := by
    intro l l' h
    rw [stringCleaner_eq, stringCleaner_eq, h]
  constructor
  · exact nums_spaced _ _ (fun l l' h => by rw [hc l l' h]) h
  · exact nums_spaced _ _ (fun l l' h => by rw [hc l l' h]) h

/-- C248 (part that holds): the surfaces are read the same. Missing: tabs (`C248_tab_violated`). -/
theorem C248_surfaces_partial {a b : List Str} (h : List.Forall₂ Spaced a b) :
    processSurfaceBlock a = processSurfaceBlock b := by
  have step : ∀ (s : Dict Int Surface × Str) (l l' : Str), Spaced l l' → surfStep s l = surfStep s l' := by
    intro s l l' hl
    have hw := spaced_words hl
    have e1 : isContinueLine l = isContinueLine l' := by
      apply bool_both <;> intro h <;> rw [isContinueLine_iff] at h ⊢
      · exact cont_spaced hl h
      · exact cont_spaced (spaced_symm hl) h
    have e2 : strip l = [] ↔ strip l' = [] := by
      have key : ∀ l : Str, strip l = [] ↔ splitWs l = [] := by
        intro l
        constructor
        · intro h
          rw [← splitWs_strip, h]; rfl
        · intro h
          have hb : Blank l := by
            have := isWords_iff.2 h
            cases this with
            | blank h => exact h
          unfold strip lstrip
          rw [List.dropWhile_eq_nil_iff.2 (fun c hc => hb c hc)]
          rfl
      rw [key, key, hw]
    have e3 : startsWith (lower l) p!"c" = startsWith (lower l') p!"c" := by
      have one : ∀ l l', Spaced l l' → startsWith (lower l) p!"c" = true → startsWith (lower l') p!"c" = true := by
        intro l l' hs h
        have := present_spaced (p := p!"c") [] (by decide) (by decide) (by decide) (.inl rfl) (.cons hs .nil)
        simp only [isCardPresent, List.any_cons, List.any_nil, Bool.or_false, List.append_nil,
          show lower p!"c" = p!"c" from rfl] at this
        rw [← this]
        exact h
      exact bool_both (one _ _ hl) (one _ _ (spaced_symm hl))
    have e4 : stringCleaner l = stringCleaner l' := by rw [stringCleaner_eq, stringCleaner_eq, hw]
    unfold surfStep
    simp only [e1, e2, e3, e4]
  have fold : ∀ s : Dict Int Surface × Str, a.foldlM surfStep s = b.foldlM surfStep s := by
    induction h with
    | nil => intro s; rfl
    | @cons l l' a b hl _ ih =>
      intro s
      rw [List.foldlM_cons, List.foldlM_cons, step s l l' hl]
      congr 1
      funext s
      exact ih s
  unfold processSurfaceBlock
  rw [fold]

/-- C248 is violated for a tab behind the number: the material is listed but read without any nuclide, and the mode card is
    not found. -/
theorem C248_tab_violated : getMaterialNumbers [p!"m1\t1001 2"] = .ok [1] ∧
    (∀ (flt : Str → Option F), readMaterialLines flt 1 [p!"m1\t1001 2"] = .ok ⟨1, [], [], 0, [], []⟩) ∧
    SameWords p!"m1\t1001 2" p!"m1 1001 2" ∧
    readMaterialLines (fun s => pyInt s) 1 [p!"m1 1001 2"] = .ok ⟨1, [(p!"1001", 2)], [], 1, [], []⟩ ∧
    readModeCard [p!"mode\tn"] = none ∧ readModeCard [p!"mode n"] = some [p!"n"] := by
  refine ⟨by decide +kernel, fun flt => ?_, sameWords_iff.2 (by decide +kernel), by decide +kernel, by decide +kernel,
    by decide +kernel⟩
  unfold readMaterialLines
  rw [show stringCleaner (join p!" " (scan (matStart 1) false [p!"m1\t1001 2"])) = [] by decide +kernel,
    show getCardLines [p!"m1\t1001 2"] (p!"mt" ++ intStr 1) = [] by decide +kernel,
    show getCardLines [p!"m1\t1001 2"] (p!"mx" ++ intStr 1) = [] by decide +kernel]
  rfl

example : List.Forall₂ Spaced [p!"m1 1001 2", p!"     8016 1", []] [p!"m1    1001  2 ", p!"        8016   1", []] :=
  .cons (.card (w := p!"m1") (r := p!" 1001 2") (r' := p!"    1001  2 ") ⟨by decide, by decide⟩ (.inr ⟨rfl, rfl⟩)
      (sameWords_iff.2 (by decide +kernel)))
    (.cons (.cont (by decide) (by decide) (sameWords_iff.2 (by decide +kernel))) (.cons .empty .nil))

/-! ### Cells and the whole input -/

/-- Two lines of a cell block that differ in the blanks of a cell card: cards with the same words, lines that are neither
    cards nor continuation lines, or equal lines. -/
inductive CellSpaced : Str → Str → Prop
  | card {l l'} (h : ∃ c ∈ l.head?, isDigit c = true) (h' : ∃ c ∈ l'.head?, isDigit c = true) (hw : SameWords l l') :
      CellSpaced l l'
  | other {l l'} (h : ∃ c ∈ l.head?, isDigit c = false) (h' : ∃ c ∈ l'.head?, isDigit c = false) (hc : ¬ Cont l)
      (hc' : ¬ Cont l') (hw : SameWords l l') : CellSpaced l l'
  | same {l} : CellSpaced l l

private theorem cellStep_spaced (flt : Str → Option F) (st : CellSt F) {l l' : Str} (h : CellSpaced l l') :
    cellStep flt st l = cellStep flt st l' := by
  have hd : ∀ {l : Str} {b : Bool}, (∃ c ∈ l.head?, isDigit c = b) → ∃ c, l[0]? = some c ∧ isDigit c = b := by
    rintro l b ⟨c, hc, hb⟩
    exact ⟨c, by rw [← List.head?_eq_getElem?]; exact hc, hb⟩
  cases h with
  | card h h' hw =>
    obtain ⟨c, h1, h2⟩ := hd h
    obtain ⟨d, h3, h4⟩ := hd h'
    have e : stringCleaner l = stringCleaner l' := by rw [stringCleaner_eq, stringCleaner_eq, sameWords_iff.1 hw]
    unfold cellStep
    simp only [h1, h3, orErr, ex_ok_bind, h2, h4, if_true, e]
  | other h h' hc hc' hw =>
    obtain ⟨c, h1, h2⟩ := hd h
    obtain ⟨d, h3, h4⟩ := hd h'
    have e1 : isContinueLine l = false := by rw [← isContinueLine_iff] at hc; simpa using hc
    have e2 : isContinueLine l' = false := by rw [← isContinueLine_iff] at hc'; simpa using hc'
    unfold cellStep
    simp only [h1, h3, orErr, ex_ok_bind, h2, h4, Bool.false_eq_true, if_false, e1, e2]
  | same => rfl

/-- C248 (part that holds): the cells are read the same however the words of the cell cards are spaced, with blanks or tabs.
    Missing: continuation lines of cells with other blanks, and tabs in the other blocks (`C248_tab_violated`). -/
theorem C248_cells_partial (flt : Str → Option F) {a b : List Str} (h : List.Forall₂ CellSpaced a b) :
    processCellBlock flt a = processCellBlock flt b := by
  have fold : ∀ s : CellSt F, a.foldlM (cellStep flt) s = b.foldlM (cellStep flt) s := by
    induction h with
    | nil => intro s; rfl
    | @cons l l' a b hl _ ih =>
      intro s
      rw [List.foldlM_cons, List.foldlM_cons, cellStep_spaced flt s hl]
      congr 1
      funext s
      exact ih s
  unfold processCellBlock
  rw [fold]

/-- The same materials under the same numbers in the same order, up to the blanks in the lines kept as text. -/
def SameMaterials (d d' : Dict Int (Material F)) : Prop := List.Forall₂ (fun e e' => e.1 = e'.1 ∧ SameMaterial e.2 e'.2) d d'

private theorem sameMaterials_set {d d' : Dict Int (Material F)} (h : SameMaterials d d') (k : Int) {m m' : Material F}
    (hm : SameMaterial m m') : SameMaterials (d.set k m) (d'.set k m') := by
  have hk : d.any (fun e => decide (e.1 = k)) = d'.any (fun e => decide (e.1 = k)) := by
    induction h with
    | nil => rfl
    | cons he _ ih => simp only [List.any_cons, ih, he.1]
  unfold Dict.set
  rw [hk]
  split_ifs
  · unfold SameMaterials at h ⊢
    rw [List.forall₂_map_left_iff, List.forall₂_map_right_iff]
    refine h.imp ?_
    rintro e e' ⟨h1, h2⟩
    rw [h1]
    split_ifs
    · exact ⟨rfl, hm⟩
    · exact ⟨h1, h2⟩
  · exact List.rel_append h (.cons ⟨rfl, hm⟩ .nil)

private theorem materials_spaced (flt : Str → Option F) {a b : List Str} (h : List.Forall₂ Spaced a b) (ns : List Int) :
    ∀ d d' : Dict Int (Material F), SameMaterials d d' →
      BothOr SameMaterials (readMaterials flt a ns d) (readMaterials flt b ns d') := by
  induction ns with
  | nil => exact fun d d' hd => .inl ⟨_, _, rfl, rfl, hd⟩
  | cons n ns ih =>
    intro d d' hd
    refine both_bind (C248_material_partial flt n h) (fun m m' hm => ?_)
    rw [hm.1]
    exact ih _ _ (sameMaterials_set hd _ hm)

/-- What is read from two inputs that are spaced differently. -/
def SameRead (x y : Input F) : Prop :=
  x.cells = y.cells ∧ x.surfaces = y.surfaces ∧ x.mode = y.mode ∧ x.talNums = y.talNums ∧ x.matNums = y.matNums ∧
  SameMaterials x.materials y.materials ∧ x.tallies = y.tallies ∧
  x.isVoid = y.isVoid ∧ x.isKcode = y.isKcode ∧ x.isSdef = y.isSdef ∧ x.isPtrac = y.isPtrac

private theorem blank_words {l l' : Str} (h : splitWs l = splitWs l') (hb : Blank l) : Blank l' := by
  exact splitWs_eq_nil_iff.1 (h ▸ splitWs_eq_nil_iff.2 hb)

/-- C248 (part that holds): two input files with the same blocks up to blanks give the same cells, surfaces, mode, materials,
    tallies and flags, or the same error. Missing: tabs (`C248_tab_violated`) and continuation lines of cells
    with other blanks. -/
theorem C248_input_partial (flt : Str → Option F) (path path' : Str) {a b c a' b' c' : List Str} {x y x' y' : Str}
    (ha : ∀ l ∈ a, ¬ Blank l) (hx : Blank x) (hb : ∀ l ∈ b, ¬ Blank l) (hy : Blank y)
    (hca : List.Forall₂ CellSpaced a a') (hcb : List.Forall₂ Spaced (x :: b) (x' :: b'))
    (hcc : List.Forall₂ Spaced (y :: c) (y' :: c')) :
    BothOr SameRead (readLines flt path (a ++ x :: (b ++ y :: c))) (readLines flt path' (a' ++ x' :: (b' ++ y' :: c'))) := by
  have wa : ∀ l l', CellSpaced l l' → splitWs l = splitWs l' := by
    intro l l' h
    cases h with
    | card _ _ h => exact sameWords_iff.1 h
    | other _ _ _ _ h => exact sameWords_iff.1 h
    | same => rfl
  have nb : ∀ {R : Str → Str → Prop} {p q : List Str}, (∀ l l', R l l' → splitWs l = splitWs l') → List.Forall₂ R p q →
      (∀ l ∈ p, ¬ Blank l) → ∀ l ∈ q, ¬ Blank l := by
    intro R p q hR h
    induction h with
    | nil => simp
    | cons hl _ ih =>
      intro hp l hm
      rcases List.mem_cons.1 hm with rfl | hm
      · exact fun hbl => hp _ (by simp) (blank_words (hR _ _ hl).symm hbl)
      · exact ih (fun l hl => hp l (by simp [hl])) l hm
  have s1 := (C78_blocks (a ++ x :: (b ++ y :: c)) a (x :: b) (y :: c)).2
    ⟨by simp, ha, ⟨x, b, rfl, hx, hb⟩, y, c, rfl, hy⟩
  have s2 := (C78_blocks (a' ++ x' :: (b' ++ y' :: c')) a' (x' :: b') (y' :: c')).2
    ⟨by simp, nb wa hca ha, ⟨x', b', rfl, blank_words (spaced_words (List.forall₂_cons.1 hcb).1) hx,
      nb (fun _ _ h => spaced_words h) (List.forall₂_cons.1 hcb).2 hb⟩, y', c', rfl,
      blank_words (spaced_words (List.forall₂_cons.1 hcc).1) hy⟩
  obtain ⟨n1, n2⟩ := C248_numbers_partial hcc
  have pr : ∀ p : Str, (∀ c ∈ p, isSpace c = false) → p ≠ [] → lower p = p →
      isCardPresent (y :: c) p = isCardPresent (y' :: c') p := by
    intro p h1 h2 h3
    have := present_spaced [] h1 h2 h3 (.inl rfl) hcc
    rwa [List.append_nil] at this
  unfold readLines
  rw [s1, s2]
  simp only [ex_ok_bind, C248_cells_partial flt hca, C248_surfaces_partial hcb, n1, n2]
  refine both_same _ (fun cells => both_same _ (fun sf => both_same _ (fun tn => both_same _ (fun mn => ?_))))
  refine both_bind (materials_spaced flt hcc mn [] [] .nil) (fun ms ms' hm => .inl ⟨_, _, rfl, rfl, rfl, rfl,
    (C248_card_partial (card := p!"mode") (by decide) (by decide) hcc).2, rfl, rfl, hm, ?_,
    pr _ (by decide) (by decide) (by decide), pr _ (by decide) (by decide) (by decide),
    pr _ (by decide) (by decide) (by decide), pr _ (by decide) (by decide) (by decide)⟩)
  show readTallies (y :: c) tn = readTallies (y' :: c') tn
  unfold readTallies
  simp only [C248_tally_partial _ hcc]

example : CellSpaced p!"1 0 -5 imp:n=1" p!"1  0   -5\timp:n=1 " :=
  .card ⟨'1', rfl, by decide⟩ ⟨'1', rfl, by decide⟩ (sameWords_iff.2 (by decide +kernel))

example (flt : Str → Option F) : BothOr SameRead (readLines flt [] [p!"1 0 -5", [], p!"5 so 1", [], p!"mode n"])
    (readLines flt [] [p!"1  0  -5", [], p!"5  so  1", [], p!"mode   n"]) :=
  C248_input_partial flt [] [] (a := [p!"1 0 -5"]) (b := [p!"5 so 1"]) (c := [p!"mode n"]) (a' := [p!"1  0  -5"])
    (b' := [p!"5  so  1"]) (c' := [p!"mode   n"]) (by unfold Blank; decide) (by unfold Blank; decide)
    (by unfold Blank; decide) (by unfold Blank; decide)
    (.cons (.card ⟨'1', rfl, by decide⟩ ⟨'1', rfl, by decide⟩ (sameWords_iff.2 (by decide +kernel))) .nil)
    (.cons .empty (.cons (.card (w := p!"5") (r := p!" so 1") (r' := p!"  so  1") ⟨by decide, by decide⟩ (.inr ⟨rfl, rfl⟩)
      (sameWords_iff.2 (by decide +kernel))) .nil))
    (.cons .empty (.cons (.card (w := p!"mode") (r := p!" n") (r' := p!"   n") ⟨by decide, by decide⟩ (.inr ⟨rfl, rfl⟩)
      (sameWords_iff.2 (by decide +kernel))) .nil))

end Props
