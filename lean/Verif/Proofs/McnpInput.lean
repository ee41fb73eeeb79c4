/- Helper lemmas for the model of mcnp_input_reader.py. -/
import Verif.Model.McnpInput
import Verif.Spec.McnpInput
import Verif.Proofs.NeutUtilities
import Verif.Proofs.Except
import Verif.Proofs.MapM
import Verif.Proofs.Dict
import Verif.Proofs.NatStr
import Mathlib.Data.List.Dedup
import Mathlib.Data.List.Perm.Basic

namespace Py

theorem toLower_eq_low {c d : Char} (hd : d.toNat < 65) : c.toLower = d ↔ c = d := by
  rw [← Char.toNat_inj, ← Char.toNat_inj, toNat_toLower]
  split <;> omega

theorem toLower_eq_letter {c : Char} (d D : Char) (hd : 97 ≤ d.toNat) (hd' : d.toNat ≤ 122) (hD : D.toNat + 32 = d.toNat) :
    c.toLower = d ↔ c = d ∨ c = D := by
  rw [← Char.toNat_inj, ← Char.toNat_inj, ← Char.toNat_inj, toNat_toLower]
  split <;> omega

theorem toLower_toLower (c : Char) : c.toLower.toLower = c.toLower := by
  rw [← Char.toNat_inj, toNat_toLower, toNat_toLower]
  split_ifs <;> omega

theorem lower_lower (s : Str) : lower (lower s) = lower s := by
  simp [lower, toLower_toLower]

theorem isSpace_toLower (c : Char) : isSpace c.toLower = isSpace c := by
  unfold isSpace
  simp only [toNat_toLower]
  split
  · rename_i h
    rw [Bool.eq_iff_iff]
    simp only [Bool.or_eq_true, Bool.and_eq_true, decide_eq_true_eq, beq_iff_eq]
    omega
  · rfl

theorem splitP_lower {p : Char → Bool} (hp : ∀ c : Char, p c.toLower = p c) (s : Str) :
    splitP p (lower s) = (splitP p s).map lower := by
  induction s with
  | nil => rfl
  | cons c cs ih =>
    cases h : p c with
    | true =>
      rw [splitP_cons_pos h]
      show splitP p (c.toLower :: lower cs) = _
      rw [splitP_cons_pos (by rw [hp, h]), ih]; rfl
    | false =>
      obtain ⟨l, ls, hl⟩ := List.exists_cons_of_ne_nil (splitP_ne_nil p cs)
      show splitP p (c.toLower :: lower cs) = _
      simp only [splitP, h, hp, ih, hl, List.map_cons]
      rfl

theorem splitWs_lower (s : Str) : splitWs (lower s) = (splitWs s).map lower := by
  unfold splitWs
  rw [splitP_lower isSpace_toLower, List.filter_map]
  congr 1
  apply List.filter_congr
  intro w _
  cases w <;> rfl

theorem splitOn_lower {d : Char} (hd : d.toNat < 65) (s : Str) : splitOn d (lower s) = (splitOn d s).map lower := by
  unfold splitOn
  apply splitP_lower
  intro c
  rw [Bool.eq_iff_iff]
  simp [toLower_eq_low hd]

/-- The first piece of a text cut at `c`. -/
theorem splitOn_headD (c : Char) (s : Str) : (splitOn c s).headD [] = s.takeWhile (· ≠ c) := by
  by_cases h : c ∈ s
  · obtain ⟨a, b, rfl, ha⟩ := List.eq_append_cons_of_mem h
    have hn : ∀ d ∈ a, (d == c) = false := by
      intro d hd; simp only [beq_eq_false_iff_ne, ne_eq]; rintro rfl; exact ha hd
    rw [splitOn, splitP_append_sep (by simp), splitP_of_not_mem hn]
    rw [List.takeWhile_append_of_pos]
    · simp
    · intro d hd; simpa using hn d hd
  · have hn : ∀ d ∈ s, (d == c) = false := by
      intro d hd; simp only [beq_eq_false_iff_ne, ne_eq]; rintro rfl; exact h hd
    rw [splitOn, splitP_of_not_mem hn]
    symm
    simp only [List.headD_cons]
    rw [List.takeWhile_eq_self_iff]
    intro d hd; simpa using hn d hd

theorem splitWs_append_sp (a b : Str) : splitWs (a ++ ' ' :: b) = splitWs a ++ splitWs b :=
  splitWs_append_space isSpace_space a b

theorem splitWs_join_lines (ls : List Str) : splitWs (join p!" " ls) = ls.flatMap splitWs := by
  induction ls with
  | nil => rfl
  | cons x xs ih =>
    cases xs with
    | nil => simp [join]
    | cons y ys =>
      rw [join_cons (by simp), List.flatMap_cons, ← ih]
      exact splitWs_append_sp x _

/-- The pieces at blanks of a cleaned text are its words. -/
theorem splitOn_stringCleaner {t : Str} (h : splitWs t ≠ []) :
    splitOn ' ' (NeutUtilities.stringCleaner t) = splitWs t := by
  rw [NeutUtilities.stringCleaner_eq]
  apply splitOn_join h
  intro w hw hm
  have := (mem_splitWs hw).2 ' ' hm
  simp [isSpace_space] at this

theorem splitOn_stringCleaner_drop (t : Str) (k : Nat) (hk : 0 < k) :
    (splitOn ' ' (NeutUtilities.stringCleaner t)).drop k = (splitWs t).drop k := by
  by_cases h : splitWs t = []
  · rw [NeutUtilities.stringCleaner_eq, h]
    obtain ⟨j, rfl⟩ : ∃ j, k = j + 1 := ⟨k - 1, by omega⟩
    simp [join, splitOn, splitP]
  · rw [splitOn_stringCleaner h]

end Py

namespace McnpInput
open Py NeutUtilities Spec.Mcnp

theorem removeInlineComment_eq (l : Str) : removeInlineComment l = code l := splitOn_headD '$' l

theorem code_lower (l : Str) : code (lower l) = lower (code l) := by
  unfold code lower
  rw [List.takeWhile_map]
  congr 2
  funext c
  simp only [Function.comp, ne_eq, decide_not, Bool.not_eq_eq_eq_not, Bool.not_not]
  exact decide_eq_decide.2 (toLower_eq_low (by decide))

theorem code_code (l : Str) : code (code l) = code l := by
  unfold code
  rw [List.takeWhile_eq_self_iff]
  intro c hc
  have := List.mem_takeWhile_imp hc
  simpa using this

theorem isContinueLine_iff {l : Str} : isContinueLine l = true ↔ Cont l := startsWith_iff

theorem lower_eq_nil {l : Str} : lower l = [] ↔ l = [] := by simp [lower]

theorem blanks_of_lower {l : Str} (n : Nat) : List.replicate n ' ' <+: lower l ↔ List.replicate n ' ' <+: l := by
  induction n generalizing l with
  | zero => simp
  | succ n ih =>
    cases l with
    | nil => simp [lower]
    | cons c cs =>
      show _ <+: c.toLower :: lower cs ↔ _
      rw [List.replicate_succ, List.cons_prefix_cons, List.cons_prefix_cons, ih]
      rw [eq_comm, toLower_eq_low (by decide), eq_comm]

theorem cont_lower {l : Str} : Cont (lower l) ↔ Cont l := blanks_of_lower 5

theorem comment_iff {l : Str} : startsWith (lower l) p!"c " = true ↔ Comment l := by
  rw [startsWith_iff]
  constructor
  · rintro ⟨t, ht⟩
    match l, ht with
    | [], ht => simp [lower] at ht
    | [x], ht => simp [lower] at ht
    | x :: y :: rest, ht =>
      simp only [List.cons_append, List.nil_append, lower, List.map_cons, List.cons.injEq] at ht
      have h1 := (toLower_eq_letter 'c' 'C' (by decide) (by decide) (by decide)).1 ht.1.symm
      have h2 := (toLower_eq_low (by decide)).1 ht.2.1.symm
      exact ⟨x, rest, by rw [h2], h1⟩
  · rintro ⟨x, rest, rfl, rfl | rfl⟩ <;> exact ⟨lower rest, rfl⟩

/-- What is needed of a start test: it fails on empty and on continuation lines. -/
structure GoodStart (start : Str → Bool) : Prop where
  nil : start [] = false
  blank : ∀ l, start (' ' :: l) = false

theorem cont_cons {l : Str} (h : Cont l) : ∃ t, l = ' ' :: t := by
  obtain ⟨t, rfl⟩ := h; exact ⟨_, rfl⟩

theorem code_cont {l : Str} (h : Cont l) : Cont (code l) := by
  obtain ⟨t, rfl⟩ := h
  exact ⟨code t, rfl⟩

theorem scan_skip (start : Str → Bool) {pre : List Str} (h : ∀ l ∈ pre, start (lower l) = false) (rest : List Str) :
    scan start false (pre ++ rest) = scan start false rest := by
  induction pre with
  | nil => rfl
  | cons l ls ih =>
    simp only [List.cons_append, scan, h l (by simp), Bool.false_eq_true, if_false]
    exact ih (fun l hl => h l (by simp [hl]))

theorem scan_body {start : Str → Bool} (g : GoodStart start) {body rest : List Str}
    (h : ∀ l ∈ body, Cont l ∨ Comment l ∨ l = []) (hr : ∀ l ∈ rest.head?, ¬ (Cont l ∨ Comment l ∨ l = [])) :
    scan start true (body ++ rest) = (body.filter (fun l => decide (Cont l))).map (fun l => lower (code l)) := by
  induction body with
  | nil =>
    cases rest with
    | nil => rfl
    | cons l ls =>
      have hl := hr l (by simp)
      push Not at hl
      obtain ⟨h1, h2, h3⟩ := hl
      have h1' : isContinueLine (lower l) = false := by
        rw [Bool.eq_false_iff, ne_eq, isContinueLine_iff, cont_lower]; exact h1
      have h2' : startsWith (lower l) p!"c " = false := by
        rw [Bool.eq_false_iff, ne_eq, comment_iff]; exact h2
      have h3' : lower l ≠ [] := by rw [ne_eq, lower_eq_nil]; exact h3
      simp [scan, h1', h2', h3']
  | cons l ls ih =>
    have ih' := ih (fun l hl => h l (by simp [hl]))
    by_cases hc : Cont l
    · have h1 : isContinueLine (lower l) = true := by rw [isContinueLine_iff, cont_lower]; exact hc
      have h2 : start (removeInlineComment (lower l)) = false := by
        rw [removeInlineComment_eq]
        obtain ⟨t, ht⟩ := cont_cons (code_cont (cont_lower.2 hc))
        rw [ht, g.blank]
      simp only [List.cons_append, scan, h1, if_true, h2, Bool.false_eq_true, if_false, ih']
      rw [List.filter_cons_of_pos (by simpa using hc), List.map_cons, removeInlineComment_eq, code_lower]
    · have h1 : isContinueLine (lower l) = false := by
        rw [Bool.eq_false_iff, ne_eq, isContinueLine_iff, cont_lower]; exact hc
      rw [List.filter_cons_of_neg (by simpa using hc), ← ih']
      rcases h l (by simp) with h' | h' | h'
      · exact absurd h' hc
      · simp only [List.cons_append, scan, h1, comment_iff.2 h', if_true, Bool.false_eq_true, if_false]
      · subst h'
        have : startsWith (lower []) p!"c " = false := rfl
        simp only [List.cons_append, scan, h1, this, Bool.false_eq_true, if_false]
        simp [lower, g.nil]

/-- Reading one card. -/
theorem scan_card {start : Str → Bool} {head : Str → Prop} (g : GoodStart start)
    (hs : ∀ l, start (lower l) = true ↔ head l) {lines : List Str} {first : Str} {body : List Str}
    (h : Card head lines first body) : scan start false lines = cardText first body := by
  obtain ⟨pre, rest, rfl, hp, hf, hb, hr⟩ := h
  rw [scan_skip start (fun l hl => by rw [Bool.eq_false_iff, ne_eq, hs]; exact hp l hl)]
  simp only [scan, (hs first).2 hf, if_true, scan_body g hb hr, removeInlineComment_eq, code_lower, cardText]

theorem scan_absent {start : Str → Bool} {head : Str → Prop} (hs : ∀ l, start (lower l) = true ↔ head l) {lines : List Str}
    (h : ∀ l ∈ lines, ¬ head l) : scan start false lines = [] := by
  have := scan_skip start (pre := lines) (fun l hl => by rw [Bool.eq_false_iff, ne_eq, hs]; exact h l hl) []
  rw [List.append_nil] at this
  rw [this]; rfl

/-- Every list of lines either has no such card or has a first one. -/
theorem card_cases (head : Str → Prop) (lines : List Str) :
    (∀ l ∈ lines, ¬ head l) ∨ ∃ first body, Card head lines first body := by
  classical
  by_cases h : ∀ l ∈ lines, ¬ head l
  · exact .inl h
  · right
    have hne : lines.dropWhile (fun l => decide (¬ head l)) ≠ [] := by
      intro h0
      rw [List.dropWhile_eq_nil_iff] at h0
      exact h (fun l hl => by simpa using h0 l hl)
    obtain ⟨first, tl, ht⟩ := List.exists_cons_of_ne_nil hne
    refine ⟨first, tl.takeWhile (fun l => decide (Cont l ∨ Comment l ∨ l = [])), 
      lines.takeWhile (fun l => decide (¬ head l)), tl.dropWhile (fun l => decide (Cont l ∨ Comment l ∨ l = [])), ?_, ?_, ?_, ?_, ?_⟩
    · rw [List.takeWhile_append_dropWhile, ← ht, List.takeWhile_append_dropWhile]
    · intro l hl; simpa using List.mem_takeWhile_imp hl
    · have := List.head_dropWhile_not (fun l => decide (¬ head l)) hne
      simp only [ht, List.head_cons] at this
      simpa using this
    · intro l hl; simpa only [decide_eq_true_eq] using List.mem_takeWhile_imp hl
    · intro l hl
      have hne' : tl.dropWhile (fun l => decide (Cont l ∨ Comment l ∨ l = [])) ≠ [] := by
        rintro h0; rw [h0] at hl; simp at hl
      have := List.head_dropWhile_not (fun l => decide (Cont l ∨ Comment l ∨ l = [])) hne'
      rw [List.head?_eq_some_head hne'] at hl
      simp only [Option.mem_def, Option.some.injEq] at hl
      rw [hl] at this
      simpa only [decide_eq_false_iff_not] using this

theorem slice_one {s : Str} {k : Nat} {c : Char} : slice s k (k + 1) = [c] ↔ s[k]? = some c := by
  unfold slice
  rw [List.drop_take]
  simp only [Nat.add_sub_cancel_left]
  rw [List.take_one, List.head?_drop]
  cases s[k]? <;> simp

theorem cardStart_iff {card l : Str} : cardStart card (lower l) = true ↔ CardHead card l := by
  unfold cardStart
  rw [Bool.and_eq_true, Bool.or_eq_true, beq_iff_eq, beq_iff_eq, startsWith_iff, slice_one, slice_one]
  constructor
  · rintro ⟨⟨t, ht⟩, h⟩
    have hlen : card.length < l.length := by
      have : card.length < (lower l).length := by
        rcases h with h | h <;> exact (List.getElem?_eq_some_iff.1 h).1
      simpa [lower] using this
    refine ⟨l.take card.length, l[card.length], l.drop (card.length + 1), ?_, ?_, ?_⟩
    · rw [List.getElem_cons_drop, List.take_append_drop]
    · have := congrArg (List.take card.length) ht
      rw [List.take_left' (by simp [lower])] at this
      unfold lower at this ⊢
      rw [this, List.map_take]
    · rw [List.getElem?_eq_getElem (by simpa [lower] using hlen)] at h
      simp only [lower, List.getElem_map, Option.some.injEq] at h
      rcases h with h | h
      · exact .inl ((toLower_eq_low (by decide)).1 h)
      · exact .inr ((toLower_eq_low (by decide)).1 h)
  · rintro ⟨name, c, rest, rfl, hn, hc⟩
    have hlen : name.length = card.length := by simpa [lower] using congrArg List.length hn
    refine ⟨⟨lower (c :: rest), ?_⟩, ?_⟩
    · rw [← hn]; simp [lower]
    · have : (lower (name ++ c :: rest))[card.length]? = some c.toLower := by
        rw [← hlen]; simp [lower]
      rw [this]
      rcases hc with rfl | rfl
      · left; rfl
      · right; rfl

theorem cardStart_good {card : Str} (hne : card ≠ []) (hb : card.head? ≠ some ' ') : GoodStart (cardStart card) := by
  obtain ⟨c, cs, rfl⟩ := List.exists_cons_of_ne_nil hne
  constructor
  · simp [cardStart, startsWith, lower]
  · intro l
    have : c ≠ ' ' := by simpa using hb
    have : c.toLower ≠ ' ' := fun h => this ((toLower_eq_low (by decide)).1 h)
    simp [cardStart, startsWith, lower, this]

theorem takeWhile_eq_split {p : Char → Bool} {s w : Str} (hw : ∀ c ∈ w, p c = true) :
    s.takeWhile p = w ↔ ∃ rest, s = w ++ rest ∧ ∀ c ∈ rest.head?, p c = false := by
  constructor
  · intro h
    refine ⟨s.dropWhile p, by rw [← h, List.takeWhile_append_dropWhile], ?_⟩
    intro c hc
    have hne : s.dropWhile p ≠ [] := by rintro h0; rw [h0] at hc; simp at hc
    have := List.head_dropWhile_not p hne
    rw [List.head?_eq_some_head hne] at hc
    simp only [Option.mem_def, Option.some.injEq] at hc
    rw [← hc]; exact this
  · rintro ⟨rest, rfl, hr⟩
    rw [List.takeWhile_append_of_pos hw]
    cases rest with
    | nil => simp
    | cons c cs =>
      rw [List.takeWhile_cons_of_neg]
      · simp
      · rw [hr c (by simp)]; simp

theorem lower_eq_append {l a b : Str} (h : lower l = a ++ b) : ∃ x y, l = x ++ y ∧ lower x = a ∧ lower y = b := by
  unfold lower at *
  obtain ⟨x, y, rfl, h1, h2⟩ := List.map_eq_append_iff.1 h
  exact ⟨x, y, rfl, h1, h2⟩

theorem lower_eq_natStr {x : Str} {n : Nat} (h : lower x = natStr n) : x = natStr n := by
  have : ∀ c ∈ x, c.toLower = c := by
    intro c hc
    apply digit_toLower_self
    rw [← isDigit_toLower]
    apply natStr_isDigit (n := n)
    rw [← h]; exact List.mem_map_of_mem hc
  rw [← h]
  unfold lower
  conv_lhs => rw [← List.map_id x]
  exact List.map_congr_left (fun c hc => (this c hc).symm)

theorem matStart_iff {n : Nat} {l : Str} : matStart (n : Int) (lower l) = true ↔ MatHead n l := by
  have hw : ∀ c ∈ natStr n, (decide (c ≠ ' ')) = true := by
    intro c hc
    have := natStr_isDigit hc
    simp only [decide_eq_true_eq]
    rintro rfl; exact absurd this (by decide)
  have key : ∀ (x y : Char) (t : Str), (((splitOn ' ' (x :: y :: t)).headD []).drop 1 = natStr n ∧ x ≠ ' ') ↔
      (∃ rest, y :: t = natStr n ++ rest ∧ ∀ c ∈ rest.head?, c = ' ') ∧ x ≠ ' ' := by
    intro x y t
    constructor
    · rintro ⟨h, hx⟩
      refine ⟨?_, hx⟩
      rw [splitOn_headD, List.takeWhile_cons_of_pos (by simpa using hx), List.drop_succ_cons, List.drop_zero,
        takeWhile_eq_split hw] at h
      obtain ⟨rest, h1, h2⟩ := h
      exact ⟨rest, h1, fun c hc => by simpa using h2 c hc⟩
    · rintro ⟨⟨rest, h1, h2⟩, hx⟩
      refine ⟨?_, hx⟩
      rw [splitOn_headD, List.takeWhile_cons_of_pos (by simpa using hx), List.drop_succ_cons, List.drop_zero,
        takeWhile_eq_split hw]
      exact ⟨rest, h1, fun c hc => by simpa using h2 c hc⟩
  constructor
  · intro h
    match l, h with
    | [], h => simp [lower, matStart] at h
    | [x], h => exact absurd h (by simp [lower, matStart])
    | x :: y :: t, h =>
      change matStart (n : Int) (x.toLower :: y.toLower :: lower t) = true at h
      unfold matStart at h
      split at h
      · rename_i b tl heq
        simp only [List.cons.injEq] at heq
        obtain ⟨hx, rfl, rfl⟩ := heq
        rw [hx, Bool.and_eq_true, beq_iff_eq, intStr_natCast] at h
        obtain ⟨⟨rest, h1, h2⟩, _⟩ := (key 'm' y.toLower (lower t)).1 ⟨h.2, by decide⟩
        obtain ⟨a, b, h3, h4, h5⟩ := lower_eq_append (l := y :: t) h1
        refine ⟨x, b, by rw [h3, lower_eq_natStr h4],
          (toLower_eq_letter 'm' 'M' (by decide) (by decide) (by decide)).1 hx, ?_⟩
        cases b with
        | nil => exact .inl rfl
        | cons d ds =>
          right
          have := h2 d.toLower (by rw [← h5]; rfl)
          rw [(toLower_eq_low (by decide)).1 this]; rfl
      · simp at h
  · rintro ⟨x, rest, rfl, hx, hr⟩
    obtain ⟨d, ds, hd⟩ := List.exists_cons_of_ne_nil (natStr_ne_nil n)
    have hxl : x.toLower = 'm' := by rcases hx with rfl | rfl <;> rfl
    have hl : lower (x :: (natStr n ++ rest)) = 'm' :: d :: (ds ++ lower rest) := by
      show x.toLower :: lower (natStr n ++ rest) = _
      rw [hxl]
      unfold lower
      rw [List.map_append]
      have := natStr_lower n
      unfold lower at this
      rw [this, hd]; rfl
    rw [hl]
    unfold matStart
    have hdig : isDigit d = true := natStr_isDigit (n := n) (by rw [hd]; simp)
    simp only [hdig, Bool.true_and, beq_iff_eq, intStr_natCast]
    refine ((key 'm' d (ds ++ lower rest)).2 ⟨⟨lower rest, by rw [hd]; rfl, ?_⟩, by decide⟩).1
    rcases hr with rfl | hr
    · simp [lower]
    · cases rest with
      | nil => simp at hr
      | cons c cs =>
        simp only [List.head?_cons, Option.some.injEq] at hr
        subst hr
        intro e he
        simp only [lower, List.map_cons, List.head?_cons, Option.mem_def, Option.some.injEq] at he
        rw [← he]; rfl

theorem matStart_good (n : Int) : GoodStart (matStart n) := ⟨rfl, fun _ => rfl⟩
theorem talStart_good (n : Int) : GoodStart (talStart n) := ⟨rfl, fun _ => rfl⟩

theorem takeWhile_takeWhile_ne (a b : Char) (s : Str) :
    (s.takeWhile (· ≠ a)).takeWhile (· ≠ b) = s.takeWhile (fun c => decide (c ≠ a) && decide (c ≠ b)) := by
  induction s with
  | nil => rfl
  | cons c cs ih =>
    by_cases h : c = a
    · simp [List.takeWhile, h]
    · by_cases h' : c = b
      · simp [List.takeWhile, h']
        split <;> simp_all
      · rw [List.takeWhile_cons_of_pos (by simpa using h), List.takeWhile_cons_of_pos (by simpa using h'),
          List.takeWhile_cons_of_pos (by simp [h, h']), ih]

theorem talStart_iff {n : Nat} {l : Str} : talStart (n : Int) (lower l) = true ↔ TalHead n l := by
  have hw : ∀ c ∈ natStr n, (decide (c ≠ ' ') && decide (c ≠ ':')) = true := by
    intro c hc
    have := natStr_isDigit hc
    simp only [Bool.and_eq_true, decide_eq_true_eq]
    constructor <;> (rintro rfl; exact absurd this (by decide))
  have key : ∀ (x y : Char) (t : Str), ((splitOn ':' (((splitOn ' ' (x :: y :: t)).headD []).drop 1)).headD [] = natStr n ∧ x ≠ ' ') ↔
      (∃ rest, y :: t = natStr n ++ rest ∧ ∀ c ∈ rest.head?, c = ' ' ∨ c = ':') ∧ x ≠ ' ' := by
    intro x y t
    constructor
    · rintro ⟨h, hx⟩
      refine ⟨?_, hx⟩
      rw [splitOn_headD, splitOn_headD, List.takeWhile_cons_of_pos (by simpa using hx), List.drop_succ_cons, List.drop_zero,
        takeWhile_takeWhile_ne, takeWhile_eq_split hw] at h
      obtain ⟨rest, h1, h2⟩ := h
      refine ⟨rest, h1, fun c hc => ?_⟩
      have := h2 c hc
      by_cases hc : c = ' '
      · exact .inl hc
      · right; simpa [hc] using this
    · rintro ⟨⟨rest, h1, h2⟩, hx⟩
      refine ⟨?_, hx⟩
      rw [splitOn_headD, splitOn_headD, List.takeWhile_cons_of_pos (by simpa using hx), List.drop_succ_cons, List.drop_zero,
        takeWhile_takeWhile_ne, takeWhile_eq_split hw]
      refine ⟨rest, h1, fun c hc => ?_⟩
      rcases h2 c hc with rfl | rfl <;> decide
  constructor
  · intro h
    match l, h with
    | [], h => simp [lower, talStart] at h
    | [x], h => exact absurd h (by simp [lower, talStart])
    | x :: y :: t, h =>
      change talStart (n : Int) (x.toLower :: y.toLower :: lower t) = true at h
      unfold talStart at h
      split at h
      · rename_i b tl heq
        simp only [List.cons.injEq] at heq
        obtain ⟨hx, rfl, rfl⟩ := heq
        rw [hx, Bool.and_eq_true, beq_iff_eq, intStr_natCast] at h
        obtain ⟨⟨rest, h1, h2⟩, _⟩ := (key 'f' y.toLower (lower t)).1 ⟨h.2, by decide⟩
        obtain ⟨a, b, h3, h4, h5⟩ := lower_eq_append (l := y :: t) h1
        refine ⟨x, b, by rw [h3, lower_eq_natStr h4],
          (toLower_eq_letter 'f' 'F' (by decide) (by decide) (by decide)).1 hx, ?_⟩
        cases b with
        | nil => exact .inl rfl
        | cons d ds =>
          right
          rcases h2 d.toLower (by rw [← h5]; rfl) with h | h
          · left; rw [(toLower_eq_low (by decide)).1 h]; rfl
          · right; rw [(toLower_eq_low (by decide)).1 h]; rfl
      · simp at h
  · rintro ⟨x, rest, rfl, hx, hr⟩
    obtain ⟨d, ds, hd⟩ := List.exists_cons_of_ne_nil (natStr_ne_nil n)
    have hxl : x.toLower = 'f' := by rcases hx with rfl | rfl <;> rfl
    have hl : lower (x :: (natStr n ++ rest)) = 'f' :: d :: (ds ++ lower rest) := by
      show x.toLower :: lower (natStr n ++ rest) = _
      rw [hxl]
      unfold lower
      rw [List.map_append]
      have := natStr_lower n
      unfold lower at this
      rw [this, hd]; rfl
    rw [hl]
    unfold talStart
    have hdig : isDigit d = true := natStr_isDigit (n := n) (by rw [hd]; simp)
    simp only [hdig, Bool.true_and, beq_iff_eq, intStr_natCast]
    refine ((key 'f' d (ds ++ lower rest)).2 ⟨⟨lower rest, by rw [hd]; rfl, ?_⟩, by decide⟩).1
    rcases hr with rfl | hr
    · simp [lower]
    · cases rest with
      | nil => simp at hr
      | cons c cs =>
        simp only [List.head?_cons, Option.some.injEq] at hr
        intro e he
        simp only [lower, List.map_cons, List.head?_cons, Option.mem_def, Option.some.injEq] at he
        rw [← he]
        rcases hr with rfl | rfl
        · left; rfl
        · right; rfl

theorem get_foldl_lastWins {K V : Type} [DecidableEq K] (es : List (K × V)) (k : K) (v : V) :
    Dict.get (es.foldl (fun (d : Dict K V) e => d.set e.1 e.2) []) k = some v ↔ LastWins es k v := by
  rw [Dict.get_foldl_set]
  simp only [Dict.get, List.find?_nil, Option.map_none, Option.or_none, Option.map_eq_some_iff]
  unfold LastWins
  constructor
  · rintro ⟨e, he, rfl⟩
    obtain ⟨a, b, h1, h2, h3⟩ := Dict.find?_reverse_eq_some.1 he
    have : e.1 = k := by simpa using h2
    subst this
    exact ⟨a, b, h1, fun e he => by simpa using h3 e he⟩
  · rintro ⟨a, b, rfl, h⟩
    exact ⟨(k, v), Dict.find?_reverse_eq_some.2 ⟨a, b, rfl, by simp, fun e he => by simpa using h e he⟩, rfl⟩

theorem length_foldl_set {K V : Type} [DecidableEq K] (es : List (K × V)) :
    (es.foldl (fun (d : Dict K V) e => d.set e.1 e.2) []).length = (es.map (·.1)).dedup.length := by
  have h1 : (es.foldl (fun (d : Dict K V) e => d.set e.1 e.2) []).keys.Nodup := Dict.nodup_keys_foldl_set es [] (by simp [Dict.keys])
  have h2 : ∀ k, k ∈ (es.foldl (fun (d : Dict K V) e => d.set e.1 e.2) []).keys ↔ k ∈ (es.map (·.1)).dedup := by
    intro k
    rw [Dict.mem_keys_foldl_set, List.mem_dedup, List.mem_map]
    simp [Dict.keys]
  have := ((List.perm_ext_iff_of_nodup h1 (List.nodup_dedup _)).2 h2).length_eq
  rw [← this]
  simp [Dict.keys]

theorem pairs_ok {F : Type} {flt : Str → Option F} {es : List (Str × Str × F)} (h : ∀ e ∈ es, flt e.2.1 = some e.2.2)
    (rest : List Str) (d : Dict Str F) :
    pairs flt (es.flatMap (fun e => [e.1, e.2.1]) ++ rest) d =
      pairs flt rest ((es.map (fun e => (e.1, e.2.2))).foldl (fun (d : Dict Str F) e => d.set e.1 e.2) d) := by
  induction es generalizing d with
  | nil => rfl
  | cons e es ih =>
    simp only [List.flatMap_cons, List.cons_append, List.nil_append, pairs, h e (by simp), orErr, ex_ok_bind, List.map_cons,
      List.foldl_cons]
    exact ih (fun e he => h e (by simp [he])) _

theorem splitWs_word_append {w rest : Str} (hw : w ≠ []) (hs : ∀ c ∈ w, isSpace c = false)
    (hr : ∀ c ∈ rest.head?, isSpace c = true) : splitWs (w ++ rest) = w :: splitWs rest := by
  apply splitWs_of_isWords
  have := Spec.IsWords.word (pre := []) (w := w) (rest := rest) (ws := splitWs rest) (by simp [Spec.Blank]) ⟨hw, hs⟩ hr
    (isWords_splitWs rest)
  simpa using this

theorem splitWs_headD {c : Char} {cs : Str} (h : isSpace c = false) :
    (splitWs (c :: cs)).headD [] = (c :: cs).takeWhile (fun d => !isSpace d) := by
  have e : c :: cs = (c :: cs).takeWhile (fun d => !isSpace d) ++ (c :: cs).dropWhile (fun d => !isSpace d) :=
    (List.takeWhile_append_dropWhile).symm
  conv_lhs => rw [e]
  rw [splitWs_word_append]
  · rfl
  · rw [List.takeWhile_cons_of_pos (by simp [h])]; simp
  · intro d hd
    have := List.mem_takeWhile_imp hd
    simpa using this
  · intro d hd
    have hne : (c :: cs).dropWhile (fun d => !isSpace d) ≠ [] := by rintro h0; rw [h0] at hd; simp at hd
    have := List.head_dropWhile_not (fun d => !isSpace d) hne
    rw [List.head?_eq_some_head hne] at hd
    simp only [Option.mem_def, Option.some.injEq] at hd
    rw [hd] at this
    simpa using this

theorem splitOn_stringCleaner_headD (t : Str) : (splitOn ' ' (stringCleaner t)).headD [] = (splitWs t).headD [] := by
  by_cases h : splitWs t = []
  · rw [stringCleaner_eq, h]; rfl
  · rw [splitOn_stringCleaner h]

theorem splitOn_eq_cons {c : Char} {w k : Str} {l : List Str} (hl : l ≠ []) :
    splitOn c w = k :: l ↔ w = k ++ c :: join [c] l ∧ c ∉ k ∧ ∀ x ∈ l, c ∉ x := by
  constructor
  · intro h
    have h1 := join_splitOn c w
    rw [h, join_cons hl] at h1
    have h2 : ∀ x ∈ splitOn c w, c ∉ x := by
      intro x hx hc
      have := mem_splitP hx c hc
      simp at this
    rw [h] at h2
    exact ⟨by rw [← h1]; simp, h2 k (by simp), fun x hx => h2 x (by simp [hx])⟩
  · rintro ⟨rfl, h1, h2⟩
    have : k ++ c :: join [c] l = join [c] (k :: l) := by rw [join_cons hl]; simp
    rw [this]
    apply splitOn_join (by simp)
    simp only [List.mem_cons, forall_eq_or_imp]
    exact ⟨h1, h2⟩

end McnpInput
