/-
C271: comments behind the data cards of an MCNP input.
-/
import Verif.Props.NoComments

set_option linter.unusedSimpArgs false

namespace Props
open Py NeutUtilities McnpInput Spec.Mcnp
variable {F : Type}

/-- A line with a comment behind it, and the line without it: there is a blank before the dollar sign. -/
inductive Commented : Str → Str → Prop
  | same (l : Str) : Commented l l
  | cut {a c : Str} : '$' ∉ a → ' ' ∈ a → Commented (a ++ '$' :: c) a

private theorem lower_cut (a c : Str) : lower (a ++ '$' :: c) = lower a ++ '$' :: lower c := by simp [lower]

private theorem dollar_lower {a : Str} (h : '$' ∉ a) : '$' ∉ lower a := by
  intro hm
  obtain ⟨d, hd, he⟩ := List.mem_map.1 hm
  have : d = '$' := (toLower_eq_low (by decide)).1 he
  exact h (this ▸ hd)

private theorem blank_lower {a : Str} (h : ' ' ∈ a) : ' ' ∈ lower a := List.mem_map.2 ⟨' ', h, rfl⟩

private theorem prefix_cut {p a c : Str} (hp : '$' ∉ p) : p <+: a ++ '$' :: c ↔ p <+: a := by
  constructor
  · rintro ⟨t, ht⟩
    rcases List.append_eq_append_iff.1 ht with ⟨u, hu, -⟩ | ⟨u, hu, hv⟩
    · exact ⟨u, hu.symm⟩
    · cases u with
      | nil => exact ⟨[], by simpa using hu⟩
      | cons d u =>
        simp only [List.cons_append, List.cons.injEq] at hv
        exact absurd (by rw [hu]; simp [← hv.1]) hp
  · rintro ⟨t, rfl⟩
    exact ⟨t ++ '$' :: c, by simp⟩

private theorem starts_cut {p a c : Str} (hp : '$' ∉ p) : startsWith (a ++ '$' :: c) p = startsWith a p := by
  rw [Bool.eq_iff_iff, startsWith_iff, startsWith_iff]
  exact prefix_cut hp

private theorem takeWhile_cut {a c : Str} (h : ' ' ∈ a) :
    (a ++ '$' :: c).takeWhile (fun d => decide (d ≠ ' ')) = a.takeWhile (fun d => decide (d ≠ ' ')) := by
  induction a with
  | nil => cases h
  | cons d a ih =>
    by_cases hd : d = ' '
    · rw [List.cons_append, List.takeWhile_cons_of_neg (by simp [hd]), List.takeWhile_cons_of_neg (by simp [hd])]
    · rw [List.cons_append, List.takeWhile_cons_of_pos (by simpa using hd), List.takeWhile_cons_of_pos (by simpa using hd), ih]
      rcases List.mem_cons.1 h with h | h
      · exact absurd h.symm hd
      · exact h

private theorem code_cut {a c : Str} (h : '$' ∉ a) : removeInlineComment (a ++ '$' :: c) = removeInlineComment a := by
  rw [removeInlineComment_eq, removeInlineComment_eq]
  unfold code
  rw [List.takeWhile_append_of_pos (by intro d hd; simp; rintro rfl; exact h hd), List.takeWhile_cons_of_neg (by simp), List.append_nil,
    List.takeWhile_eq_self_iff.2 (by intro d hd; simp; rintro rfl; exact h hd)]

/-- A test for the first line of a card that does not look at comments. -/
private def BlindStart (start : Str → Bool) : Prop := ∀ a c : Str, '$' ∉ a → ' ' ∈ a → start (a ++ '$' :: c) = start a

private theorem scan_cut {start : Str → Bool} (g : BlindStart start) {a b : List Str} (h : List.Forall₂ Commented a b) :
    ∀ s, scan start s a = scan start s b := by
  induction h with
  | nil => intro s; rfl
  | @cons x y a b hxy _ ih =>
    cases hxy with
    | same => intro s; cases s <;> simp only [scan, ih]
    | @cut _ c h1 h2 =>
      have e0 := lower_cut y c
      have d1 := dollar_lower h1
      have d2 := blank_lower h2
      have e1 : start (lower (y ++ '$' :: c)) = start (lower y) := by rw [e0, g _ _ d1 d2]
      have e2 : removeInlineComment (lower (y ++ '$' :: c)) = removeInlineComment (lower y) := by rw [e0, code_cut d1]
      have e3 : isContinueLine (lower (y ++ '$' :: c)) = isContinueLine (lower y) := by
        unfold isContinueLine; rw [e0, starts_cut (by decide)]
      have e4 : startsWith (lower (y ++ '$' :: c)) p!"c " = startsWith (lower y) p!"c " := by rw [e0, starts_cut (by decide)]
      have n1 : lower (y ++ '$' :: c) ≠ [] := by rw [e0]; simp
      have n2 : lower y ≠ [] := by rintro h; rw [h] at d2; cases d2
      intro s
      cases s with
      | false => simp only [scan, e1, e2, ih]
      | true => simp only [scan, e1, e2, e3, e4, n1, n2, ih, ne_eq, not_false_eq_true, if_true]

private theorem card_blind (card : Str) (hd : '$' ∉ card) : BlindStart (cardStart card) := by
  intro a c ha _
  have key : ∀ s : Str, cardStart card s = (startsWith s (lower card ++ p!" ") || startsWith s (lower card ++ p!":")) := by
    intro s
    unfold cardStart
    by_cases hp : startsWith s (lower card) = true
    · obtain ⟨t, rfl⟩ := startsWith_iff.1 hp
      have hl : card.length = (lower card).length := by simp [lower]
      rw [hp, Bool.true_and, hl]
      have sl : slice (lower card ++ t) (lower card).length ((lower card).length + 1) = t.take 1 := by
        unfold slice
        rw [List.drop_take, List.drop_left, Nat.add_sub_cancel_left]
      rw [sl]
      have pre : ∀ x : Char, startsWith (lower card ++ t) (lower card ++ [x]) = (t.take 1 == [x]) := by
        intro x
        rw [Bool.eq_iff_iff, startsWith_iff, List.prefix_append_right_inj]
        cases t with
        | nil => simp
        | cons d t =>
          simp only [List.take_succ_cons, List.take_zero, beq_iff_eq, List.cons.injEq, and_true, List.cons_prefix_cons, List.nil_prefix]
          exact eq_comm
      rw [pre, pre]
    · have hp : startsWith s (lower card) = false := by simpa using hp
      have no : ∀ x : Char, startsWith s (lower card ++ [x]) = false := by
        intro x
        rw [Bool.eq_false_iff]
        intro h
        rw [Bool.eq_false_iff] at hp
        exact hp (startsWith_iff.2 ((List.prefix_append _ _).trans (startsWith_iff.1 h)))
      rw [hp, no, no]; rfl
  have hd' : '$' ∉ lower card := dollar_lower hd
  rw [key, key, starts_cut (by simpa using hd'), starts_cut (by simpa using hd')]

private theorem mat_blind (n : Int) : BlindStart (matStart n) := by
  intro a c ha hb
  cases a with
  | nil => cases hb
  | cons x a =>
    cases a with
    | nil =>
      have : x = ' ' := (List.mem_singleton.1 hb).symm
      subst this; rfl
    | cons y a =>
      have e := takeWhile_cut (c := c) hb
      unfold matStart
      simp only [List.cons_append] at e ⊢
      split <;> rename_i heq
      · simp only [List.cons.injEq] at heq
        obtain ⟨rfl, rfl, rfl⟩ := heq
        simp only [splitOn_headD]
        rw [e]
      · split <;> rename_i heq'
        · simp only [List.cons.injEq] at heq'
          obtain ⟨rfl, rfl, rfl⟩ := heq'
          exact absurd rfl (heq _ _)
        · rfl

private theorem tal_blind (n : Int) : BlindStart (talStart n) := by
  intro a c ha hb
  cases a with
  | nil => cases hb
  | cons x a =>
    cases a with
    | nil =>
      have : x = ' ' := (List.mem_singleton.1 hb).symm
      subst this; rfl
    | cons y a =>
      have e := takeWhile_cut (c := c) hb
      unfold talStart
      simp only [List.cons_append] at e ⊢
      split <;> rename_i heq
      · simp only [List.cons.injEq] at heq
        obtain ⟨rfl, rfl, rfl⟩ := heq
        simp only [splitOn_headD]
        rw [e]
      · split <;> rename_i heq'
        · simp only [List.cons.injEq] at heq'
          obtain ⟨rfl, rfl, rfl⟩ := heq'
          exact absurd rfl (heq _ _)
        · rfl

private theorem present_cut (card : Str) (hd : '$' ∉ card) {a b : List Str} (h : List.Forall₂ Commented a b) :
    isCardPresent a card = isCardPresent b card := by
  unfold isCardPresent
  induction h with
  | nil => rfl
  | @cons x y a b hxy _ ih =>
    rw [List.any_cons, List.any_cons, ih]
    cases hxy with
    | same => rfl
    | cut h1 h2 => rw [lower_cut, starts_cut (dollar_lower hd)]

private theorem int_dollar (n : Int) : '$' ∉ intStr n := by
  have hd : ∀ k : Nat, '$' ∉ natStr k := fun k hm => absurd (natStr_isDigit hm) (by decide)
  cases n with
  | ofNat n => exact hd n
  | negSucc n =>
    intro hm
    rcases List.mem_cons.1 hm with hm | hm
    · exact absurd hm (by decide)
    · exact hd _ hm

/-- The first word ends at the blank. -/
private theorem first_word {x : Char} {a c : Str} (hx : isSpace x = false) (hb : ' ' ∈ x :: a) :
    (splitOn ' ' (stringCleaner (x :: a ++ '$' :: c))).headD [] = (splitOn ' ' (stringCleaner (x :: a))).headD [] := by
  have hsplit := List.takeWhile_append_dropWhile (p := fun d => !isSpace d) (l := x :: a)
  have hw : (x :: a).takeWhile (fun d => !isSpace d) ≠ [] := by rw [List.takeWhile_cons_of_pos (by simp [hx])]; simp
  have hws : ∀ d ∈ (x :: a).takeWhile (fun d => !isSpace d), isSpace d = false := by
    intro d hd
    simpa using List.mem_takeWhile_imp hd
  generalize (x :: a).takeWhile (fun d => !isSpace d) = w at *
  have hr : ∃ d r, (x :: a).dropWhile (fun d => !isSpace d) = d :: r ∧ isSpace d = true := by
    cases h : (x :: a).dropWhile (fun d => !isSpace d) with
    | nil =>
      rw [h, List.append_nil] at hsplit
      rw [← hsplit] at hb
      exact absurd (hws _ hb) (by decide)
    | cons d r =>
      refine ⟨d, r, rfl, ?_⟩
      have := List.head?_dropWhile_not (fun d => !isSpace d) (x :: a)
      rw [h] at this
      simpa using this
  obtain ⟨d, r, hd, hsp⟩ := hr
  rw [hd] at hsplit
  have head : ∀ t : Str, (splitOn ' ' (stringCleaner (w ++ (d :: r ++ t)))).headD [] = w := by
    intro t
    have := splitWs_word_append (rest := d :: r ++ t) hw hws (by intro e he; simp at he; rw [← he]; exact hsp)
    rw [splitOn_stringCleaner (by rw [this]; simp), this]
    rfl
  have h1 := head ('$' :: c)
  have h2 := head []
  rw [← List.append_assoc, hsplit] at h1
  rw [List.append_nil, hsplit] at h2
  rw [h1, h2]

private theorem letter_cut (x : Char) {a c : Str} (h : ' ' ∈ a) : letterDigit x (a ++ '$' :: c) = letterDigit x a := by
  cases a with
  | nil => cases h
  | cons u a =>
    cases a with
    | nil =>
      have : u = ' ' := (List.mem_singleton.1 h).symm
      subst this
      have : isDigit '$' = false := by decide
      simp [letterDigit, this]
    | cons v a => rfl

private theorem letter_head {x : Char} (hx : isSpace x = false) {u : Char} {a : Str} (h : letterDigit x (u :: a) = true) : isSpace u = false := by
  cases a with
  | nil => simp [letterDigit] at h
  | cons v a =>
    simp only [letterDigit, Bool.and_eq_true, beq_iff_eq] at h
    rw [← isSpace_toLower, h.1, hx]

private theorem numbers_cut {x : Char} (hx : isSpace x = false) (f : Str → Except Err Int) {a b : List Str} (h : List.Forall₂ Commented a b) :
    (a.filter (letterDigit x)).mapM (fun l => f ((splitOn ' ' (stringCleaner l)).headD [])) =
      (b.filter (letterDigit x)).mapM (fun l => f ((splitOn ' ' (stringCleaner l)).headD [])) := by
  induction h with
  | nil => rfl
  | @cons l m a b hlm _ ih =>
    cases hlm with
    | same =>
      by_cases hl : letterDigit x l = true
      · rw [List.filter_cons_of_pos hl, List.filter_cons_of_pos hl, List.mapM_cons, List.mapM_cons, ih]
      · rw [List.filter_cons_of_neg hl, List.filter_cons_of_neg hl, ih]
    | @cut _ c h1 h2 =>
      have e := letter_cut x (c := c) h2
      by_cases hl : letterDigit x m = true
      · rw [List.filter_cons_of_pos (by rw [e]; exact hl), List.filter_cons_of_pos hl, List.mapM_cons, List.mapM_cons, ih]
        cases m with
        | nil => cases h2
        | cons u m => rw [first_word (letter_head hx hl) h2]
      · rw [List.filter_cons_of_neg (by rw [e]; exact hl), List.filter_cons_of_neg hl, ih]

private theorem material_cut (flt : Str → Option F) (n : Int) {a b : List Str} (h : List.Forall₂ Commented a b) :
    readMaterialLines flt n a = readMaterialLines flt n b := by
  unfold readMaterialLines getCardLines
  have := int_dollar n
  rw [scan_cut (mat_blind n) h, scan_cut (card_blind (p!"mt" ++ intStr n) (by simpa using this)) h,
    scan_cut (card_blind (p!"mx" ++ intStr n) (by simpa using this)) h]

private theorem materials_cut (flt : Str → Option F) {a b : List Str} (h : List.Forall₂ Commented a b) (ns : List Int) :
    ∀ d, readMaterials flt a ns d = readMaterials flt b ns d := by
  induction ns with
  | nil => intro d; rfl
  | cons n ns ih => intro d; simp only [readMaterials, material_cut flt n h, ih]

private theorem tally_cut (n : Int) {a b : List Str} (h : List.Forall₂ Commented a b) : readTallyLines n a = readTallyLines n b := by
  unfold readTallyLines
  have := int_dollar n
  rw [scan_cut (tal_blind n) h, present_cut (p!"e" ++ intStr n ++ p!" ") (by simpa using this) h,
    present_cut (p!"t" ++ intStr n ++ p!" ") (by simpa using this) h, present_cut (p!"fm" ++ intStr n ++ p!" ") (by simpa using this) h,
    present_cut (p!"sd" ++ intStr n ++ p!" ") (by simpa using this) h, present_cut (p!"fc" ++ intStr n ++ p!" ") (by simpa using this) h]

private theorem tallies_cut {a b : List Str} (h : List.Forall₂ Commented a b) (ns : List Int) : readTallies a ns = readTallies b ns := by
  unfold readTallies
  cases ns with
  | nil => rfl
  | cons n ns => simp only [tally_cut _ h]

/-- C271 (part that holds): an input with comments behind its data cards is read like the input without them. Missing: comments without a blank
    before the dollar sign (`C271_tight_violated`), and comments behind surfaces (`C89_violated`) and cells (`C207_comment_number_violated`). -/
theorem C271_data_partial (flt : Str → Option F) (path path' : Str) {a b c c' : List Str} {x y y' : Str}
    (ha : ∀ l ∈ a, ¬ Spec.Blank l) (hx : Spec.Blank x) (hb : ∀ l ∈ b, ¬ Spec.Blank l) (hy : Spec.Blank y)
    (h : List.Forall₂ Commented (y :: c) (y' :: c')) :
    BothOr SameCards (readLines flt path (a ++ x :: (b ++ y :: c))) (readLines flt path' (a ++ x :: (b ++ y' :: c'))) := by
  have hy' : Spec.Blank y' := by
    cases h with
    | cons h1 _ =>
      cases h1 with
      | same => exact hy
      | cut => exact absurd (hy '$' (by simp)) (by decide)
  have s1 := (C78_blocks (a ++ x :: (b ++ y :: c)) a (x :: b) (y :: c)).2 ⟨by simp, ha, ⟨x, b, rfl, hx, hb⟩, y, c, rfl, hy⟩
  have s2 := (C78_blocks (a ++ x :: (b ++ y' :: c')) a (x :: b) (y' :: c')).2 ⟨by simp, ha, ⟨x, b, rfl, hx, hb⟩, y', c', rfl, hy'⟩
  have t1 : getTallyNumbers (y :: c) = getTallyNumbers (y' :: c') :=
    numbers_cut (x := 'f') rfl (fun w => orErr .ValueError (pyInt (((splitOn ':' w).headD []).drop 1))) h
  have t2 : getMaterialNumbers (y :: c) = getMaterialNumbers (y' :: c') :=
    numbers_cut (x := 'm') rfl (fun w => orErr .ValueError (pyInt (w.drop 1))) h
  have t3 : readModeCard (y :: c) = readModeCard (y' :: c') := by
    unfold readModeCard getCardLines; rw [scan_cut (card_blind p!"mode" (by decide)) h]
  unfold readLines
  rw [s1, s2]
  simp only [ex_ok_bind]
  rw [t1, t2]
  refine both_same _ (fun c => both_same _ (fun sf => both_same _ (fun tn => both_same _ (fun mn => ?_))))
  rw [materials_cut flt h]
  exact both_same _ (fun ms => .inl ⟨_, _, rfl, rfl, rfl, rfl, t3, rfl, rfl, rfl, tallies_cut h tn,
    present_cut p!"void" (by decide) h, present_cut p!"kcode" (by decide) h, present_cut p!"sdef" (by decide) h, present_cut p!"ptrac" (by decide) h⟩)

private theorem pyInt_dollar {s : Str} (hs : ∀ c ∈ s, isSpace c = false) (ha : '$' ∈ s) : pyInt s = none := by
  unfold pyInt
  rw [strip_word hs]
  have key : ∀ cs : Str, '$' ∈ cs → pyNat cs = none := by
    intro cs hc
    cases h : pyNat cs with
    | none => rfl
    | some n =>
      rcases pyNat_some h '$' hc with h | h
      · exact absurd h (by decide)
      · exact absurd h (by decide)
  split
  · rw [key _ (by simpa using ha)]; rfl
  · rw [key _ (by simpa using ha)]; rfl
  · rw [key _ ha]; rfl

/-- C271 is violated without a blank before the dollar sign: no input with such a material card can be read. -/
theorem C271_tight_violated (n : Nat) (w : Str) {lines : List Str} (h : ('m' :: (natStr n ++ '$' :: w)) ∈ lines) (ns : List Int) :
    getMaterialNumbers lines ≠ .ok ns := by
  intro hok
  unfold getMaterialNumbers at hok
  rw [mapM_except_ok_iff] at hok
  have hne := natStr_ne_nil n
  have hf : ('m' :: (natStr n ++ '$' :: w)) ∈ lines.filter (letterDigit 'm') := by
    refine List.mem_filter.2 ⟨h, ?_⟩
    cases hn : natStr n with
    | nil => exact absurd hn hne
    | cons d ds =>
      have : d.isDigit = true := natStr_isDigit (n := n) (by rw [hn]; simp)
      simp only [List.cons_append, letterDigit, Bool.and_eq_true, beq_iff_eq]
      exact ⟨by decide, this⟩
  have each : ∀ l ∈ lines.filter (letterDigit 'm'), ∃ k, orErr Err.ValueError (pyInt (((splitOn ' ' (stringCleaner l)).headD []).drop 1)) = .ok k := by
    clear hf
    generalize lines.filter (letterDigit 'm') = fs at hok
    induction hok with
    | nil => intro l hl; cases hl
    | @cons x k xs ks hx _ ih =>
      intro l hl
      rcases List.mem_cons.1 hl with rfl | hl
      · exact ⟨k, hx⟩
      · exact ih l hl
  obtain ⟨k, hk⟩ := each _ hf
  have hw : ∀ d ∈ 'm' :: (natStr n ++ '$' :: w.takeWhile (fun d => !isSpace d)), isSpace d = false := by
    intro d hd
    rcases List.mem_cons.1 hd with rfl | hd
    · rfl
    · rcases List.mem_append.1 hd with hd | hd
      · exact isDigit_not_space (natStr_isDigit hd)
      · rcases List.mem_cons.1 hd with rfl | hd
        · rfl
        · simpa using List.mem_takeWhile_imp hd
  have hl : 'm' :: (natStr n ++ '$' :: w) = 'm' :: (natStr n ++ '$' :: w.takeWhile (fun d => !isSpace d)) ++ w.dropWhile (fun d => !isSpace d) := by
    simp [List.takeWhile_append_dropWhile]
  have hs := splitWs_word_append (rest := w.dropWhile (fun d => !isSpace d)) (by simp) hw (by
    intro d hd
    have := List.head?_dropWhile_not (fun d => !isSpace d) w
    rw [Option.mem_def.1 hd] at this
    simpa using this)
  rw [hl, splitOn_stringCleaner (by rw [hs]; simp), hs, List.headD_cons, List.drop_succ_cons, List.drop_zero,
    pyInt_dollar (fun d hd => hw d (List.mem_cons_of_mem _ hd)) (by simp)] at hk
  cases hk

example : List.Forall₂ Commented [[], p!"m1 1001 2 $ hydrogen", p!"     8016 1  $oxygen", p!"mode n"] [[], p!"m1 1001 2 ", p!"     8016 1  ", p!"mode n"] :=
  .cons (.same _) (.cons (.cut (a := p!"m1 1001 2 ") (c := p!" hydrogen") (by decide) (by decide))
    (.cons (.cut (a := p!"     8016 1  ") (c := p!"oxygen") (by decide) (by decide)) (.cons (.same _) .nil)))

example : getMaterialNumbers [p!"m1$ water", p!"     1001 2"] = .error .ValueError := by decide +kernel

end Props
