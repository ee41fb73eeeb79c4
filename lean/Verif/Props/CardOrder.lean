/-
C254: the order of the cards in the data block of an MCNP input.
-/
import Verif.Props.McnpInput4
import Verif.Proofs.MapM

set_option linter.unusedSimpArgs false

namespace Props
open Py McnpInput Spec.Mcnp
variable {F : Type}

/-- A data card: its first line and the lines that belong to it, which are continuations, comments or empty. -/
structure DataCard (c : Str × List Str) : Prop where
  first : ¬ (Cont c.1 ∨ Comment c.1 ∨ c.1 = [])
  body : ∀ l ∈ c.2, Cont l ∨ Comment l ∨ l = []

/-- The name of the card that starts with this line: the text before the first blank or colon, in lower case. -/
def cardName (l : Str) : Str := lower (l.takeWhile (fun c => decide (c ≠ ' ') && decide (c ≠ ':')))

/-- The lines of the cards. -/
def cardLines (cs : List (Str × List Str)) : List Str := cs.flatMap (fun c => c.1 :: c.2)

/-- A list of cards in which no two different cards have the same name. -/
structure DataCards (cs : List (Str × List Str)) : Prop where
  card : ∀ c ∈ cs, DataCard c
  names : ∀ c ∈ cs, ∀ c' ∈ cs, cardName c.1 = cardName c'.1 → c = c'

private theorem dataCards_perm {cs cs' : List (Str × List Str)} (h : DataCards cs) (hp : cs.Perm cs') : DataCards cs' :=
  ⟨fun c hc => h.card c (hp.mem_iff.2 hc), fun c hc c' hc' => h.names c (hp.mem_iff.2 hc) c' (hp.mem_iff.2 hc')⟩

private theorem cardName_lower (l : Str) : cardName l = (lower l).takeWhile (fun c => decide (c ≠ ' ') && decide (c ≠ ':')) := by
  unfold cardName lower
  rw [List.takeWhile_map]
  congr 2
  funext c
  have h1 : c.toLower = ' ' ↔ c = ' ' := toLower_eq_low (by decide)
  have h2 : c.toLower = ':' ↔ c = ':' := toLower_eq_low (by decide)
  simp [h1, h2]

private theorem scan_cards {start : Str → Bool} (g : GoodStart start) (hc : ∀ l, Comment l → start (lower l) = false)
    {top : List Str} (ht : ∀ l ∈ top, start (lower l) = false) {cs : List (Str × List Str)} (hcs : ∀ c ∈ cs, DataCard c) :
    (∃ c ∈ cs, start (lower c.1) = true ∧ scan start false (top ++ cardLines cs) = cardText c.1 c.2) ∨
    ((∀ c ∈ cs, start (lower c.1) = false) ∧ scan start false (top ++ cardLines cs) = []) := by
  rw [scan_skip start ht]
  clear ht
  induction cs with
  | nil => right; exact ⟨by simp, rfl⟩
  | cons c cs ih =>
    have hd := hcs c (by simp)
    have hbody : ∀ l ∈ c.2, start (lower l) = false := by
      intro l hl
      rcases hd.body l hl with h | h | rfl
      · obtain ⟨t, rfl⟩ := cont_cons h
        exact g.blank _
      · exact hc l h
      · exact g.nil
    cases hs : start (lower c.1) with
    | true =>
      left
      refine ⟨c, by simp, hs, ?_⟩
      have hcard : Card (fun l => start (lower l) = true) (cardLines (c :: cs)) c.1 c.2 := by
        refine ⟨[], cardLines cs, by simp [cardLines], by simp, hs, hd.body, ?_⟩
        intro l hl
        cases cs with
        | nil => simp [cardLines] at hl
        | cons c' cs =>
          simp only [cardLines, List.flatMap_cons, List.cons_append, List.head?_cons, Option.mem_def, Option.some.injEq] at hl
          subst hl
          exact (hcs c' (by simp)).first
      exact scan_card g (fun _ => Iff.rfl) hcard
    | false =>
      have e : scan start false (cardLines (c :: cs)) = scan start false (cardLines cs) := by
        have : cardLines (c :: cs) = (c.1 :: c.2) ++ cardLines cs := by simp [cardLines]
        rw [this]
        apply scan_skip
        intro l hl
        rcases List.mem_cons.1 hl with rfl | hl
        · exact hs
        · exact hbody l hl
      rw [e]
      rcases ih (fun c hc => hcs c (by simp [hc])) with ⟨d, h1, h2, h3⟩ | ⟨h1, h2⟩
      · exact .inl ⟨d, by simp [h1], h2, h3⟩
      · refine .inr ⟨?_, h2⟩
        intro d hd'
        rcases List.mem_cons.1 hd' with rfl | hd'
        · exact hs
        · exact h1 d hd'

/-- A start test that looks at the name of the card only finds the same text in either order. -/
private theorem scan_perm {start : Str → Bool} (g : GoodStart start) (hc : ∀ l, Comment l → start (lower l) = false)
    {top : List Str} (ht : ∀ l ∈ top, start (lower l) = false) {name : Str}
    (hn : ∀ l, start (lower l) = true → cardName l = name) {cs cs' : List (Str × List Str)} (h : DataCards cs) (hp : cs.Perm cs') :
    scan start false (top ++ cardLines cs) = scan start false (top ++ cardLines cs') := by
  have h' := dataCards_perm h hp
  rcases scan_cards g hc ht h.card with ⟨c, h1, h2, h3⟩ | ⟨h1, h2⟩
  · rcases scan_cards g hc ht h'.card with ⟨d, k1, k2, k3⟩ | ⟨k1, k2⟩
    · have : c = d := h.names c h1 d (hp.mem_iff.2 k1) ((hn _ h2).trans (hn _ k2).symm)
      rw [h3, k3, this]
    · rw [k1 c (hp.mem_iff.1 h1)] at h2; cases h2
  · rcases scan_cards g hc ht h'.card with ⟨d, k1, k2, k3⟩ | ⟨k1, k2⟩
    · rw [h1 d (hp.mem_iff.2 k1)] at k2; cases k2
    · rw [h2, k2]

/-! ### The names -/

private theorem takeWhile_two (l : Str) : (l.takeWhile (fun c => decide (c ≠ ' '))).takeWhile (fun c => decide (c ≠ ':')) =
    l.takeWhile (fun c => decide (c ≠ ' ') && decide (c ≠ ':')) := takeWhile_takeWhile_ne ' ' ':' l

private theorem intStr_plain (n : Int) : ∀ c ∈ intStr n, c ≠ ' ' ∧ c ≠ ':' := by
  have hd : ∀ (k : Nat), ∀ c ∈ natStr k, c ≠ ' ' ∧ c ≠ ':' := by
    intro k c hc
    have := natStr_isDigit hc
    constructor <;> rintro rfl <;> exact absurd this (by decide)
  cases n with
  | ofNat n => exact hd n
  | negSucc n =>
    intro c hc
    rcases List.mem_cons.1 hc with rfl | hc
    · decide
    · exact hd _ c hc

private theorem mat_name (n : Int) (l : Str) (h : matStart n (lower l) = true) : cardName l = 'm' :: intStr n := by
  rw [cardName_lower]
  generalize lower l = s at h
  unfold matStart at h
  split at h
  · rename_i b t
    rw [Bool.and_eq_true, beq_iff_eq, splitOn_headD] at h
    rw [← takeWhile_two]
    have h1 : List.takeWhile (fun c => decide (c ≠ ' ')) ('m' :: b :: t) = 'm' :: intStr n := by
      have := h.2
      rw [List.takeWhile_cons_of_pos (by decide), List.drop_succ_cons, List.drop_zero] at this
      rw [List.takeWhile_cons_of_pos (by decide), this]
    rw [h1, List.takeWhile_eq_self_iff]
    intro c hc
    rcases List.mem_cons.1 hc with rfl | hc
    · decide
    · simpa using (intStr_plain n c hc).2
  · cases h

private theorem tal_name (n : Int) (l : Str) (h : talStart n (lower l) = true) : cardName l = 'f' :: intStr n := by
  rw [cardName_lower]
  generalize lower l = s at h
  unfold talStart at h
  split at h
  · rename_i b t
    rw [Bool.and_eq_true, beq_iff_eq, splitOn_headD, splitOn_headD] at h
    have := h.2
    rw [List.takeWhile_cons_of_pos (by decide), List.drop_succ_cons, List.drop_zero] at this
    rw [← takeWhile_two, List.takeWhile_cons_of_pos (by decide), List.takeWhile_cons_of_pos (by decide), this]
  · cases h

private theorem card_name (card : Str) (hc : ∀ c ∈ card, c ≠ ' ' ∧ c ≠ ':') (l : Str) (h : cardStart card (lower l) = true) :
    cardName l = lower card := by
  obtain ⟨name, c, rest, rfl, h1, h2⟩ := cardStart_iff.1 h
  unfold cardName
  have hn : ∀ d ∈ name, d ≠ ' ' ∧ d ≠ ':' := by
    intro d hd
    have : d.toLower ∈ lower card := by rw [← h1]; exact List.mem_map_of_mem hd
    obtain ⟨e, he, hde⟩ := List.mem_map.1 this
    constructor <;> rintro rfl
    · exact (hc e he).1 ((toLower_eq_low (by decide)).1 hde)
    · exact (hc e he).2 ((toLower_eq_low (by decide)).1 hde)
  rw [List.takeWhile_append_of_pos (by intro d hd; simpa using hn d hd)]
  rw [List.takeWhile_cons_of_neg (by rcases h2 with rfl | rfl <;> decide), List.append_nil, h1]

private theorem head_c {start : Str → Bool} (x : Char) (hx : x ≠ 'c') (hs : ∀ l, start l = true → l.head? = some x) :
    ∀ l, Comment l → start (lower l) = false := by
  rintro l ⟨y, r, rfl, hy⟩
  rw [Bool.eq_false_iff]
  intro h
  have := hs _ h
  simp only [lower, List.map_cons, List.head?_cons, Option.some.injEq] at this
  rcases hy with rfl | rfl <;> exact hx this.symm

private theorem mat_head (n : Int) (l : Str) (h : matStart n l = true) : l.head? = some 'm' := by
  unfold matStart at h
  split at h
  · rfl
  · cases h

private theorem tal_head (n : Int) (l : Str) (h : talStart n l = true) : l.head? = some 'f' := by
  unfold talStart at h
  split at h
  · rfl
  · cases h

private theorem card_head (x : Char) (cs : Str) (hx : x.toLower = x) (l : Str) (h : cardStart (x :: cs) l = true) : l.head? = some x := by
  unfold cardStart at h
  rw [Bool.and_eq_true, startsWith_iff] at h
  obtain ⟨t, ht⟩ := h.1
  rw [← ht]
  simp [lower, hx]

/-! ### What is read -/

/-- The lines in front of the first card are blank lines and comments. -/
def TopLines (top : List Str) : Prop := ∀ l ∈ top, Comment l ∨ l = [] ∨ ∃ t, l = ' ' :: t

private theorem top_start {start : Str → Bool} (g : GoodStart start) (hc : ∀ l, Comment l → start (lower l) = false) {top : List Str}
    (h : TopLines top) : ∀ l ∈ top, start (lower l) = false := by
  intro l hl
  rcases h l hl with h | rfl | ⟨t, rfl⟩
  · exact hc l h
  · exact g.nil
  · exact g.blank _

/-- C254: the text of a card does not depend on where it stands. -/
theorem C254_card {top : List Str} (ht : TopLines top) {cs cs' : List (Str × List Str)} (h : DataCards cs) (hp : cs.Perm cs')
    (card : Str) (hc : ∀ c ∈ card, c ≠ ' ' ∧ c ≠ ':') (hne : card ≠ []) (hcc : lower card ≠ p!"c") :
    getCardLines (top ++ cardLines cs) card = getCardLines (top ++ cardLines cs') card := by
  have g : GoodStart (cardStart card) := cardStart_good hne (by
    cases card with
    | nil => exact absurd rfl hne
    | cons c cs => simpa using (hc c (by simp)).1)
  have hcom : ∀ l, Comment l → cardStart card (lower l) = false := by
    rintro l ⟨y, r, rfl, hy⟩
    rw [Bool.eq_false_iff]
    intro hs
    have := card_name card hc _ hs
    apply hcc
    rw [← this]
    unfold cardName
    rcases hy with rfl | rfl <;>
      rw [List.takeWhile_cons_of_pos (by decide), List.takeWhile_cons_of_neg (by decide)] <;> rfl
  exact scan_perm g hcom (top_start g hcom ht) (card_name card hc) h hp

private theorem cards_perm {cs cs' : List (Str × List Str)} (hp : cs.Perm cs') : (cardLines cs).Perm (cardLines cs') :=
  hp.flatMap_right _

private theorem present_perm {a b : List Str} (h : a.Perm b) (card : Str) : isCardPresent a card = isCardPresent b card := by
  unfold isCardPresent
  rw [Bool.eq_iff_iff, List.any_eq_true, List.any_eq_true]
  constructor <;> rintro ⟨x, hx, h'⟩
  · exact ⟨x, h.mem_iff.1 hx, h'⟩
  · exact ⟨x, h.mem_iff.2 hx, h'⟩

/-- C254: the mode, each material, each tally and the flags do not depend on the order of the cards. -/
theorem C254_data (flt : Str → Option F) {top : List Str} (ht : TopLines top) {cs cs' : List (Str × List Str)} (h : DataCards cs)
    (hp : cs.Perm cs') :
    readModeCard (top ++ cardLines cs) = readModeCard (top ++ cardLines cs') ∧
    (∀ n, readMaterialLines flt n (top ++ cardLines cs) = readMaterialLines flt n (top ++ cardLines cs')) ∧
    (∀ n, readTallyLines n (top ++ cardLines cs) = readTallyLines n (top ++ cardLines cs')) ∧
    ∀ card, isCardPresent (top ++ cardLines cs) card = isCardPresent (top ++ cardLines cs') card := by
  have hperm : (top ++ cardLines cs).Perm (top ++ cardLines cs') := (cards_perm hp).append_left top
  have hm : ∀ (x : Char) (n : Int), x = 't' ∨ x = 'x' → (∀ c ∈ ['m', x] ++ intStr n, c ≠ ' ' ∧ c ≠ ':') ∧
      lower (['m', x] ++ intStr n) ≠ p!"c" := by
    intro x n hx
    constructor
    · intro c hc
      rcases List.mem_append.1 hc with hc | hc
      · have : c = 'm' ∨ c = x := by simpa using hc
        rcases hx with rfl | rfl <;> rcases this with rfl | rfl <;> decide
      · exact intStr_plain n c hc
    · intro he
      have := congrArg List.length he
      simp [lower] at this
  refine ⟨?_, fun n => ?_, fun n => ?_, present_perm hperm⟩
  · unfold readModeCard
    rw [C254_card ht h hp p!"mode" (by decide) (by decide) (by decide)]
  · have hc := head_c 'm' (by decide) (mat_head n)
    unfold readMaterialLines
    rw [scan_perm (matStart_good n) hc (top_start (matStart_good n) hc ht) (mat_name n) h hp,
      C254_card ht h hp (p!"mt" ++ intStr n) (hm 't' n (.inl rfl)).1 (by simp) (hm 't' n (.inl rfl)).2,
      C254_card ht h hp (p!"mx" ++ intStr n) (hm 'x' n (.inr rfl)).1 (by simp) (hm 'x' n (.inr rfl)).2]
  · have hc := head_c 'f' (by decide) (tal_head n)
    unfold readTallyLines
    simp only [scan_perm (talStart_good n) hc (top_start (talStart_good n) hc ht) (tal_name n) h hp, present_perm hperm]

theorem mapM_perm {α β : Type} {f : α → Except Err β} {l l' : List α} (hp : l.Perm l') {r : List β} (h : l.mapM f = .ok r) :
    ∃ r', l'.mapM f = .ok r' ∧ r.Perm r' := by
  rw [mapM_except_ok_iff] at h
  induction hp generalizing r with
  | nil => cases h; exact ⟨[], rfl, .nil⟩
  | cons x _ ih =>
    cases h with
    | cons h1 h2 =>
      obtain ⟨r', k1, k2⟩ := ih h2
      exact ⟨_ :: r', mapM_except_ok_iff.2 (.cons h1 (mapM_except_ok_iff.1 k1)), k2.cons _⟩
  | swap x y l =>
    cases h with
    | cons h1 h2 =>
      cases h2 with
      | cons h2 h3 => exact ⟨_, mapM_except_ok_iff.2 (.cons h2 (.cons h1 h3)), .swap _ _ _⟩
  | trans _ _ ih1 ih2 =>
    obtain ⟨r', k1, k2⟩ := ih1 h
    obtain ⟨r'', m1, m2⟩ := ih2 (mapM_except_ok_iff.1 k1)
    exact ⟨r'', m1, k2.trans m2⟩

/-- C254: the numbers of the materials and of the tallies are the same, in the order of the cards. -/
theorem C254_numbers (top : List Str) {cs cs' : List (Str × List Str)} (hp : cs.Perm cs') :
    (∀ ns, getMaterialNumbers (top ++ cardLines cs) = .ok ns → ∃ ns', getMaterialNumbers (top ++ cardLines cs') = .ok ns' ∧ ns.Perm ns') ∧
    (∀ ns, getTallyNumbers (top ++ cardLines cs) = .ok ns → ∃ ns', getTallyNumbers (top ++ cardLines cs') = .ok ns' ∧ ns.Perm ns') := by
  have hperm : (top ++ cardLines cs).Perm (top ++ cardLines cs') := (cards_perm hp).append_left top
  exact ⟨fun ns h => mapM_perm (hperm.filter _) h, fun ns h => mapM_perm (hperm.filter _) h⟩

/-! ### Each card on its own (C270) -/

private theorem dataCards_filter {cs : List (Str × List Str)} (h : DataCards cs) (p : Str × List Str → Bool) : DataCards (cs.filter p) :=
  ⟨fun c hc => h.card c (List.mem_of_mem_filter hc), fun c hc c' hc' => h.names c (List.mem_of_mem_filter hc) c' (List.mem_of_mem_filter hc')⟩

private theorem scan_filter {start : Str → Bool} (g : GoodStart start) (hc : ∀ l, Comment l → start (lower l) = false)
    {top : List Str} (ht : ∀ l ∈ top, start (lower l) = false) {name : Str}
    (hn : ∀ l, start (lower l) = true → cardName l = name) {cs : List (Str × List Str)} (h : DataCards cs) {p : Str × List Str → Bool}
    (hp : ∀ c, cardName c.1 = name → p c = true) :
    scan start false (top ++ cardLines cs) = scan start false (cardLines (cs.filter p)) := by
  have h' := dataCards_filter h p
  have e : scan start false (cardLines (cs.filter p)) = scan start false ([] ++ cardLines (cs.filter p)) := rfl
  rw [e]
  have ht0 : ∀ l ∈ ([] : List Str), start (lower l) = false := by intro l hl; cases hl
  rcases scan_cards g hc ht h.card with ⟨c, h1, h2, h3⟩ | ⟨h1, h2⟩
  · rcases scan_cards g hc ht0 h'.card with ⟨d, k1, k2, k3⟩ | ⟨k1, k2⟩
    · have : c = d := h.names c h1 d (List.mem_of_mem_filter k1) ((hn _ h2).trans (hn _ k2).symm)
      rw [h3, k3, this]
    · rw [k1 c (List.mem_filter.2 ⟨h1, hp c (hn _ h2)⟩)] at h2; cases h2
  · rcases scan_cards g hc ht0 h'.card with ⟨d, k1, k2, k3⟩ | ⟨k1, k2⟩
    · rw [h1 d (List.mem_of_mem_filter k1)] at k2; cases k2
    · rw [h2, k2]

private theorem card_filter {top : List Str} (ht : TopLines top) {cs : List (Str × List Str)} (h : DataCards cs)
    (card : Str) (hc : ∀ c ∈ card, c ≠ ' ' ∧ c ≠ ':') (hne : card ≠ []) (hcc : lower card ≠ p!"c") {p : Str × List Str → Bool}
    (hp : ∀ c, cardName c.1 = lower card → p c = true) :
    getCardLines (top ++ cardLines cs) card = getCardLines (cardLines (cs.filter p)) card := by
  have g : GoodStart (cardStart card) := cardStart_good hne (by
    cases card with
    | nil => exact absurd rfl hne
    | cons c cs => simpa using (hc c (by simp)).1)
  have hcom : ∀ l, Comment l → cardStart card (lower l) = false := by
    rintro l ⟨y, r, rfl, hy⟩
    rw [Bool.eq_false_iff]
    intro hs
    have := card_name card hc _ hs
    apply hcc
    rw [← this]
    unfold cardName
    rcases hy with rfl | rfl <;>
      rw [List.takeWhile_cons_of_pos (by decide), List.takeWhile_cons_of_neg (by decide)] <;> rfl
  exact scan_filter g hcom (top_start g hcom ht) (card_name card hc) h hp

/-- C270: a card is found and read as if the cards with other names were not there. -/
theorem C270_card {top : List Str} (ht : TopLines top) {cs : List (Str × List Str)} (h : DataCards cs)
    (card : Str) (hc : ∀ c ∈ card, c ≠ ' ' ∧ c ≠ ':') (hne : card ≠ []) (hcc : lower card ≠ p!"c") :
    getCardLines (top ++ cardLines cs) card = getCardLines (cardLines (cs.filter (fun c => decide (cardName c.1 = lower card)))) card :=
  card_filter ht h card hc hne hcc (fun c hn => by simpa using hn)

private theorem intStr_low (n : Int) : lower (intStr n) = intStr n := by
  have hd : ∀ (k : Nat), ∀ c ∈ natStr k, c.toLower = c := by
    intro k c hc
    exact digit_toLower_self (natStr_isDigit hc)
  unfold lower
  conv_rhs => rw [← List.map_id (intStr n)]
  refine List.map_congr_left (fun c hc => ?_)
  cases n with
  | ofNat n => exact hd n c hc
  | negSucc n =>
    rcases List.mem_cons.1 hc with rfl | hc
    · rfl
    · exact hd _ c hc

/-- C270: a material depends on its own m, mt and mx card only. -/
theorem C270_material (flt : Str → Option F) (n : Int) {top : List Str} (ht : TopLines top) {cs : List (Str × List Str)} (h : DataCards cs) :
    readMaterialLines flt n (top ++ cardLines cs) = readMaterialLines flt n (cardLines (cs.filter (fun c =>
      decide (cardName c.1 ∈ [p!"m" ++ intStr n, p!"mt" ++ intStr n, p!"mx" ++ intStr n])))) := by
  have low := intStr_low n
  have hm : ∀ (x : Char), x = 't' ∨ x = 'x' → (∀ c ∈ ['m', x] ++ intStr n, c ≠ ' ' ∧ c ≠ ':') ∧ lower (['m', x] ++ intStr n) ≠ p!"c" ∧
      lower (['m', x] ++ intStr n) = ['m', x] ++ intStr n := by
    intro x hx
    refine ⟨?_, ?_, ?_⟩
    · intro c hc
      rcases List.mem_append.1 hc with hc | hc
      · have : c = 'm' ∨ c = x := by simpa using hc
        rcases hx with rfl | rfl <;> rcases this with rfl | rfl <;> decide
      · exact intStr_plain n c hc
    · intro he
      have := congrArg List.length he
      simp [lower] at this
    · have : lower (['m', x] ++ intStr n) = lower ['m', x] ++ lower (intStr n) := by simp [lower]
      rw [this, low]
      rcases hx with rfl | rfl <;> rfl
  have hc := head_c 'm' (by decide) (mat_head n)
  unfold readMaterialLines
  rw [scan_filter (matStart_good n) hc (top_start (matStart_good n) hc ht) (mat_name n) h (p := fun c =>
      decide (cardName c.1 ∈ [p!"m" ++ intStr n, p!"mt" ++ intStr n, p!"mx" ++ intStr n])) (fun c he => by simp [he]),
    card_filter ht h (p!"mt" ++ intStr n) (hm 't' (.inl rfl)).1 (by simp) (hm 't' (.inl rfl)).2.1 (p := fun c =>
      decide (cardName c.1 ∈ [p!"m" ++ intStr n, p!"mt" ++ intStr n, p!"mx" ++ intStr n])) (fun c he => by
        rw [(hm 't' (.inl rfl)).2.2] at he; simp [he]),
    card_filter ht h (p!"mx" ++ intStr n) (hm 'x' (.inr rfl)).1 (by simp) (hm 'x' (.inr rfl)).2.1 (p := fun c =>
      decide (cardName c.1 ∈ [p!"m" ++ intStr n, p!"mt" ++ intStr n, p!"mx" ++ intStr n])) (fun c he => by
        rw [(hm 'x' (.inr rfl)).2.2] at he; simp [he])]

private theorem present_filter {top : List Str} (ht : TopLines top) {cs : List (Str × List Str)} (h : DataCards cs) (card : Str)
    (hlow : lower card = card) (hc : ∀ c ∈ card, c ≠ ' ' ∧ c ≠ ':') (hne : ∃ x r, card = x :: r ∧ x ≠ 'c') {p : Str × List Str → Bool}
    (hp : ∀ c, cardName c.1 = card → p c = true) :
    isCardPresent (top ++ cardLines cs) (card ++ p!" ") = isCardPresent (cardLines (cs.filter p)) (card ++ p!" ") := by
  obtain ⟨x, r, hx, hxc⟩ := hne
  have hl : lower (card ++ p!" ") = card ++ p!" " := by
    have : lower (card ++ p!" ") = lower card ++ p!" " := by simp [lower]
    rw [this, hlow]
  have hxs : x ≠ ' ' := (hc x (by simp [hx])).1
  -- a line of this card is the first line of a card with its name
  have first : ∀ l : Str, startsWith (lower l) (card ++ p!" ") = true → cardName l = card := by
    intro l hs
    obtain ⟨t, ht⟩ := startsWith_iff.1 hs
    rw [cardName_lower, ← ht, List.append_assoc, List.takeWhile_append_of_pos (by intro d hd; simpa using hc d hd)]
    rw [List.singleton_append, List.takeWhile_cons_of_neg (by decide), List.append_nil]
  have noCont : ∀ l : Str, (∃ t, l = ' ' :: t) ∨ Comment l ∨ l = [] → startsWith (lower l) (card ++ p!" ") = false := by
    intro l hh
    rw [Bool.eq_false_iff]
    intro hs
    obtain ⟨t, ht⟩ := startsWith_iff.1 hs
    rw [hx] at ht
    rcases hh with ⟨u, rfl⟩ | ⟨y, u, rfl, hy⟩ | rfl
    · simp only [lower, List.map_cons, List.cons_append, List.cons.injEq] at ht
      exact hxs ht.1
    · simp only [lower, List.map_cons, List.cons_append, List.cons.injEq] at ht
      rcases hy with rfl | rfl <;> exact hxc ht.1
    · simp [lower] at ht
  unfold isCardPresent
  rw [hl, Bool.eq_iff_iff, List.any_eq_true, List.any_eq_true]
  constructor
  · rintro ⟨l, hm, hs⟩
    rcases List.mem_append.1 hm with hm | hm
    · rw [noCont l (by rcases ht l hm with h | h | h <;> tauto)] at hs; cases hs
    · obtain ⟨c, hcm, hm⟩ := List.mem_flatMap.1 hm
      rcases List.mem_cons.1 hm with rfl | hm
      · exact ⟨c.1, List.mem_flatMap.2 ⟨c, List.mem_filter.2 ⟨hcm, hp c (first _ hs)⟩, by simp⟩, hs⟩
      · rw [noCont l (by
          rcases (h.card c hcm).body l hm with h | h | h
          · exact .inl (cont_cons h)
          · exact .inr (.inl h)
          · exact .inr (.inr h))] at hs
        cases hs
  · rintro ⟨l, hm, hs⟩
    obtain ⟨c, hcm, hm⟩ := List.mem_flatMap.1 hm
    exact ⟨l, List.mem_append_right _ (List.mem_flatMap.2 ⟨c, List.mem_of_mem_filter hcm, hm⟩), hs⟩

/-- C270: a tally depends on its own f, e, t, fm, sd and fc card only. -/
theorem C270_tally (n : Int) {top : List Str} (ht : TopLines top) {cs : List (Str × List Str)} (h : DataCards cs) :
    readTallyLines n (top ++ cardLines cs) = readTallyLines n (cardLines (cs.filter (fun c =>
      decide (cardName c.1 ∈ [p!"f" ++ intStr n, p!"e" ++ intStr n, p!"t" ++ intStr n, p!"fm" ++ intStr n, p!"sd" ++ intStr n,
        p!"fc" ++ intStr n])))) := by
  have low := intStr_low n
  have key : ∀ w ∈ [p!"e", p!"t", p!"fm", p!"sd", p!"fc"], isCardPresent (top ++ cardLines cs) (w ++ intStr n ++ p!" ") =
      isCardPresent (cardLines (cs.filter (fun c =>
      decide (cardName c.1 ∈ [p!"f" ++ intStr n, p!"e" ++ intStr n, p!"t" ++ intStr n, p!"fm" ++ intStr n, p!"sd" ++ intStr n,
        p!"fc" ++ intStr n])))) (w ++ intStr n ++ p!" ") := by
    intro w hw
    refine present_filter ht h (w ++ intStr n) ?_ ?_ ?_ ?_
    · have : lower (w ++ intStr n) = lower w ++ lower (intStr n) := by simp [lower]
      rw [this, low]
      simp only [List.mem_cons, List.not_mem_nil, or_false] at hw
      rcases hw with rfl | rfl | rfl | rfl | rfl <;> rfl
    · intro c hc
      rcases List.mem_append.1 hc with hc | hc
      · simp only [List.mem_cons, List.not_mem_nil, or_false] at hw
        rcases hw with rfl | rfl | rfl | rfl | rfl <;> (clear * - hc; revert c; decide)
      · exact intStr_plain n c hc
    · simp only [List.mem_cons, List.not_mem_nil, or_false] at hw
      rcases hw with rfl | rfl | rfl | rfl | rfl <;> exact ⟨_, _, rfl, by decide⟩
    · intro c hcn
      simp only [List.mem_cons, List.not_mem_nil, or_false] at hw
      rcases hw with rfl | rfl | rfl | rfl | rfl <;> simp [hcn]
  have hc := head_c 'f' (by decide) (tal_head n)
  unfold readTallyLines
  simp only
  rw [scan_filter (talStart_good n) hc (top_start (talStart_good n) hc ht) (tal_name n) h (p := fun c =>
      decide (cardName c.1 ∈ [p!"f" ++ intStr n, p!"e" ++ intStr n, p!"t" ++ intStr n, p!"fm" ++ intStr n, p!"sd" ++ intStr n,
        p!"fc" ++ intStr n])) (fun c he => by simp [he]),
    key p!"e" (by simp), key p!"t" (by simp), key p!"fm" (by simp), key p!"sd" (by simp), key p!"fc" (by simp)]

private theorem readMaterials_total {flt : Str → Option F} {lines : List Str} {ns : List Int}
    (h : ∀ n ∈ ns, ∃ m, readMaterialLines flt n lines = .ok m) : ∀ d, ∃ d', readMaterials flt lines ns d = .ok d' := by
  induction ns with
  | nil => intro d; exact ⟨d, rfl⟩
  | cons n ns ih =>
    intro d
    obtain ⟨m, hm⟩ := h n (by simp)
    obtain ⟨d', hd⟩ := ih (fun k hk => h k (by simp [hk])) (d.set m.number m)
    exact ⟨d', by unfold readMaterials; rw [hm]; exact hd⟩

/-- Two inputs with the same content but for the order in which materials and tallies are listed and the line numbers of the comments. -/
structure SameContent (i j : Input F) : Prop where
  cells : i.cells = j.cells
  surfaces : i.surfaces = j.surfaces
  mode : i.mode = j.mode
  talNums : i.talNums.Perm j.talNums
  matNums : i.matNums.Perm j.matNums
  materials : ∀ n, i.materials.get n = j.materials.get n
  tallies : ∀ n, (i.tallies.bind (fun d => d.get n)) = j.tallies.bind (fun d => d.get n)
  noTallies : i.tallies = none ↔ j.tallies = none
  flags : i.isVoid = j.isVoid ∧ i.isKcode = j.isKcode ∧ i.isSdef = j.isSdef ∧ i.isPtrac = j.isPtrac

private theorem opt_ext {α : Type} {a b : Option α} (h : ∀ x, a = some x ↔ b = some x) : a = b := by
  cases a with
  | none => cases b with
    | none => rfl
    | some y => exact absurd ((h y).2 rfl) (by simp)
  | some x => exact ((h x).1 rfl).symm

private theorem tallies_get (lines : List Str) (ns : List Int) (n : Int) (t : McnpInput.Tally) :
    (readTallies lines ns).bind (fun d => d.get n) = some t ↔ n ∈ ns ∧ t = readTallyLines n lines := by
  obtain ⟨h1, h2⟩ := readTallies_spec lines ns
  cases h : readTallies lines ns with
  | none => simp [h1.1 h]
  | some d => exact h2 d h n t

/-- C254: an input whose data cards are put into another order. It can be read if the first one can, and has the same content. -/
theorem C254_input (flt : Str → Option F) (path path' : Str) {cells surfs top : List Str} {cs cs' : List (Str × List Str)}
    (hcb : ∀ l ∈ cells, ¬ Spec.Blank l) (hsb : ∃ x s, surfs = x :: s ∧ Spec.Blank x ∧ ∀ l ∈ s, ¬ Spec.Blank l)
    (htb : ∃ y d, top = y :: d ∧ Spec.Blank y) (ht : TopLines top) (h : DataCards cs) (hp : cs.Perm cs') {i : Input F}
    (hi : readLines flt path (cells ++ surfs ++ (top ++ cardLines cs)) = .ok i) :
    ∃ j, readLines flt path' (cells ++ surfs ++ (top ++ cardLines cs')) = .ok j ∧ SameContent i j := by
  have hsplit : ∀ cs, splitBlocs (cells ++ surfs ++ (top ++ cardLines cs)) = .ok (cells, surfs, top ++ cardLines cs) := by
    intro cs
    rw [C78_blocks]
    obtain ⟨y, d, rfl, hy⟩ := htb
    exact ⟨rfl, hcb, hsb, y, d ++ cardLines cs, rfl, hy⟩
  obtain ⟨hmode, hmat, htal, hcard⟩ := C254_data flt ht h hp
  obtain ⟨hmn, htn⟩ := C254_numbers top hp
  unfold readLines at hi
  rw [hsplit] at hi
  obtain ⟨_, h0, hi⟩ := ex_bind_ok.1 hi
  cases h0
  obtain ⟨ce, hc, hi⟩ := ex_bind_ok.1 hi
  obtain ⟨sf, hsf, hi⟩ := ex_bind_ok.1 hi
  obtain ⟨tn, ht', hi⟩ := ex_bind_ok.1 hi
  obtain ⟨mn, hm', hi⟩ := ex_bind_ok.1 hi
  obtain ⟨ms, hms, hi⟩ := ex_bind_ok.1 hi
  cases hi
  obtain ⟨tn', k1, k2⟩ := htn tn ht'
  obtain ⟨mn', k3, k4⟩ := hmn mn hm'
  have heach := readMaterials_each hms
  obtain ⟨ms', k5⟩ := readMaterials_total (flt := flt) (lines := top ++ cardLines cs') (ns := mn')
    (fun n hn => by rw [← hmat n]; exact heach n (k4.mem_iff.2 hn)) []
  refine ⟨_, by unfold readLines; rw [hsplit]; simp only [ex_ok_bind, hc, hsf, k1, k3, k5]; rfl, ?_⟩
  refine ⟨rfl, rfl, hmode, k2, k4, fun n => opt_ext (fun m => ?_), fun n => opt_ext (fun t => ?_), ?_, hcard _, hcard _, hcard _, hcard _⟩
  · rw [readMaterials_ok hms, readMaterials_ok k5, hmat n, k4.mem_iff]
  · rw [tallies_get, tallies_get, htal n, k2.mem_iff]
  · rw [(readTallies_spec _ _).1, (readTallies_spec _ _).1]
    constructor <;> rintro rfl
    · exact List.nil_perm.1 k2
    · exact List.perm_nil.1 k2

private def someCards : List (Str × List Str) :=
  [(p!"mode n", []), (p!"m1 1001 2", [p!"c water", p!"     8016 1"]), (p!"f4:n 1", [])]

example : DataCards someCards :=
  ⟨by
    have : ∀ c ∈ someCards, ¬ (Cont c.1 ∨ startsWith (lower c.1) p!"c " = true ∨ c.1 = []) ∧
      ∀ l ∈ c.2, Cont l ∨ startsWith (lower l) p!"c " = true ∨ l = [] := by decide +kernel
    intro c hc
    simp only [comment_iff] at this
    exact ⟨(this c hc).1, (this c hc).2⟩, by decide +kernel⟩

example : TopLines [[], p!"c data"] := by
  intro l hl
  rcases List.mem_cons.1 hl with rfl | hl
  · exact .inr (.inl rfl)
  · rw [List.mem_singleton.1 hl]; exact .inl ⟨'c', p!"data", rfl, .inl rfl⟩

example : cardName p!"F4:n 1" = p!"f4" := by decide

example : (readLines (fun s : Str => (pyInt s).map (fun z => (z : ℚ))) [] ([p!"1 0 -1"] ++ [[], p!"1 so 5"] ++ ([[]] ++ cardLines someCards))).isOk = true := by decide +kernel

end Props
